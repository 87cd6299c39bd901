import Verif.Lemmas.Sensor

/-!
# C13, C14, C15: reading traces
-/

namespace Verif.Props
open Verif Sensor

/-- The header field `name` is present and converts to the integer `n`. -/
def readsInt (h : Header) (name : String) (n : ℤ) : Prop := (h.lookup name).bind HVal.toInt = some n

/-- The header field `name` is missing or cannot be converted to an integer. -/
def noInt (h : Header) (name : String) : Prop := (h.lookup name).bind HVal.toInt = none

/-- The header field `name` is missing or cannot be converted to a float. -/
def noFloat (h : Header) (name : String) : Prop := (h.lookup name).bind HVal.toFloat = none

/-- The header field `name` is present and converts to the float `q`. -/
def readsFloat (h : Header) (name : String) (q : ℚ) : Prop :=
  (h.lookup name).bind HVal.toFloat = some q

/-- Name of the stack count field. -/
def stackKey : String := "number_of_horizontally_stacked_traces_yielding_this_trace"
/-- Name of the coordinate scalar field. -/
def scalarKey : String := "scalar_to_be_applied_to_all_coordinates"

/-- A scalar which SEG-Y allows: zero or plus or minus a power of ten. -/
def AllowedScalar (s : ℤ) : Prop := s = 0 ∨ ∃ k : ℕ, s = 10 ^ k ∨ s = -(10 ^ k)

/-- A SU (`true`) or SEGY (`false`) trace with header `h`. -/
def suOrSegy (su : Bool) (h : Header) (data : List ℚ) (delta : ℚ) : Trace :=
  if su then ⟨data, delta, some "SU", none, some h, none⟩
  else ⟨data, delta, some "SEGY", none, none, some h⟩

theorem suOrSegy_fromTrace (su : Bool) (h : Header) (data : List ℚ) (delta : ℚ) (mx my : ℚ → ℚ) :
    Sensor.fromTrace (suOrSegy su h data delta) { mapX := mx, mapY := my } =
      fromHeaderSu data delta h mx my := by
  have u1 : "SU".toUpper = "SU" := by decide +kernel
  have u2 : "SEGY".toUpper = "SEGY" := by decide +kernel
  cases su <;> simp [suOrSegy, Sensor.fromTrace, traceFormat, u1, u2]

/-- **C13** (x).  For SU and SEGY traces with an allowed scalar the receiver's x is the SEG-Y value of the
header integer, passed through the coordinate mapping. -/
theorem C13_receiver_x_follows_scalar_rule (su : Bool) (h : Header) (data : List ℚ) (delta : ℚ)
    (mx my : ℚ → ℚ) (s : Sensor) (scalar ix : ℤ) (hallowed : AllowedScalar scalar)
    (hs : readsInt h scalarKey scalar) (hx : readsInt h "group_coordinate_x" ix)
    (hok : Sensor.fromTrace (suOrSegy su h data delta) { mapX := mx, mapY := my } = .ok s) :
    s.x = mx (Spec.segyCoordinate scalar ix) := by
  rw [suOrSegy_fromTrace] at hok
  unfold fromHeaderSu at hok
  unfold readsInt scalarKey at hs
  unfold readsInt at hx
  simp only [safeInt, hs, hx, Option.getD_some] at hok
  obtain ⟨rfl, -, -⟩ := Sensor.init_ok hok
  rcases hallowed with rfl | ⟨k, rfl | rfl⟩
  · simp [scaleCoordinate_one, Spec.segyCoordinate]
  · have hp : (10 : ℤ) ^ k ≠ 0 := by positivity
    simp only [hp, if_false]
    rw [scaleCoordinate_pos]
  · have hp : -((10 : ℤ) ^ k) ≠ 0 := by
      have : (0 : ℤ) < 10 ^ k := by positivity
      omega
    simp only [hp, if_false]
    rw [scaleCoordinate_neg]

/-- **C13** (y) in the cases which hold: a negative scalar.  Missing: zero and positive scalars, where the
code uses the x coordinate (refuted below). -/
theorem C13_receiver_y_follows_scalar_rule_partial (su : Bool) (h : Header) (data : List ℚ) (delta : ℚ)
    (mx my : ℚ → ℚ) (s : Sensor) (k : ℕ) (iy : ℤ)
    (hs : readsInt h scalarKey (-(10 ^ k))) (hy : readsInt h "group_coordinate_y" iy)
    (hok : Sensor.fromTrace (suOrSegy su h data delta) { mapX := mx, mapY := my } = .ok s) :
    s.y = my (Spec.segyCoordinate (-(10 ^ k)) iy) := by
  rw [suOrSegy_fromTrace] at hok
  unfold fromHeaderSu at hok
  unfold readsInt scalarKey at hs
  unfold readsInt at hy
  have hne : ¬ (-(10 ^ k : ℤ) = 0) := by
    have : (0 : ℤ) < 10 ^ k := by positivity
    omega
  simp only [safeInt, hs, hy, Option.getD_some, hne, if_false] at hok
  obtain ⟨rfl, -, -⟩ := Sensor.init_ok hok
  simp only
  rw [scaleCoordinate_neg]

/-- **C13** (y, exactly when).  With a mapping that tells coordinates apart, the receiver's y is right exactly when the
scalar is negative or both header integers are the same. -/
theorem C13_receiver_y_right_iff_partial (su : Bool) (h : Header) (data : List ℚ) (delta : ℚ)
    (mx my : ℚ → ℚ) (hmy : Function.Injective my) (s : Sensor) (scalar ix iy : ℤ) (hallowed : AllowedScalar scalar)
    (hs : readsInt h scalarKey scalar) (hx : readsInt h "group_coordinate_x" ix)
    (hy : readsInt h "group_coordinate_y" iy)
    (hok : Sensor.fromTrace (suOrSegy su h data delta) { mapX := mx, mapY := my } = .ok s) :
    s.y = my (Spec.segyCoordinate scalar iy) ↔ scalar < 0 ∨ ix = iy := by
  rw [suOrSegy_fromTrace] at hok
  unfold fromHeaderSu at hok
  unfold readsInt scalarKey at hs
  unfold readsInt at hx hy
  simp only [safeInt, hs, hx, hy, Option.getD_some] at hok
  obtain ⟨rfl, -, -⟩ := Sensor.init_ok hok
  rcases hallowed with rfl | ⟨k, rfl | rfl⟩
  · simp [scaleCoordinate_one, Spec.segyCoordinate, hmy.eq_iff]
  · have hp : (0 : ℤ) < 10 ^ k := by positivity
    have hpq : ((10 : ℚ) ^ k) ≠ 0 := by positivity
    simp only [hp.ne', if_false]
    rw [scaleCoordinate_pos, hmy.eq_iff]
    simp [Spec.segyCoordinate, hp, hp.not_gt, hpq]
  · have hp : (0 : ℤ) < 10 ^ k := by positivity
    have hne : -((10 : ℤ) ^ k) ≠ 0 := by omega
    simp only [hne, if_false]
    rw [scaleCoordinate_neg]
    simp [hp]

/-- **C13 does not hold** for y: with scalar 1 (or unset) a receiver at (5, 7) is read as (5, 5). -/
theorem C13_receiver_y_counterexample :
    ∃ s : Sensor, Sensor.fromTrace (suOrSegy true
        [(scalarKey, .int 1), ("group_coordinate_x", .int 5), ("group_coordinate_y", .int 7)] [1, 2] 1)
        {} = .ok s ∧ s.x = 5 ∧ s.y = 5 ∧ s.y ≠ Spec.segyCoordinate 1 7 := by
  refine ⟨⟨⟨[1, 2], 1, 1, 0, 1⟩, 5, 5, 0⟩, ?_⟩
  decide +kernel

/-- The hypotheses of C13 are met by a realistic header: scalar -1000, receiver at 12.345 m. -/
example :
    let h : Header := [(scalarKey, .int (-1000)), ("group_coordinate_x", .int 12345),
      ("group_coordinate_y", .int (-250)), (stackKey, .int 3), ("delay_recording_time", .int (-500))]
    AllowedScalar (-1000) ∧ readsInt h scalarKey (-1000) ∧ readsInt h "group_coordinate_x" 12345 ∧
    Sensor.fromTrace (suOrSegy true h [1, 2] (1 / 1000)) {} =
      .ok ⟨⟨[1, 2], 1 / 1000, 3, -1 / 2, 1⟩, 2469 / 200, -1 / 4, 0⟩ := by
  refine ⟨Or.inr ⟨3, Or.inr rfl⟩, ?_, ?_, ?_⟩
  · unfold readsInt; decide +kernel
  · unfold readsInt; decide +kernel
  · decide +kernel

/-- The format the user asked for or, failing that, the format of the trace, in upper case. -/
def effectiveFormat (t : Trace) (a : TraceArgs) : Option String :=
  match a.format, t.format with
  | some f, _ => some f.toUpper
  | none, some f => some f.toUpper
  | none, none => none

/-- **C14** (unidentifiable).  Neither an argument nor a format of the trace: `ValueError`. -/
theorem C14_unidentified_format_refused (t : Trace) (a : TraceArgs)
    (h : effectiveFormat t a = none) : Sensor.fromTrace t a = .error .valueError := by
  unfold effectiveFormat at h
  rcases ha : a.format with _ | f <;> rcases ht : t.format with _ | g <;> simp [ha, ht] at h
  simp [Sensor.fromTrace, traceFormat, ha, ht]

/-- **C14** (other formats).  `NotImplementedError` exactly when headers are to be read from an
identified format other than SEG2, SU, SEGY. -/
theorem C14_other_formats_not_implemented (t : Trace) (a : TraceArgs) :
    Sensor.fromTrace t a = .error .notImplementedError ↔
      a.readHeader = true ∧ ∃ f, effectiveFormat t a = some f ∧ f ∉ ["SEG2", "SU", "SEGY"] := by
  have hinit : ∀ amp dt x y z n d, Sensor.init amp dt x y z n d ≠ .error .notImplementedError := by
    intro amp dt x y z n d
    rw [Sensor.init_eq]; split_ifs <;> simp
  have heff : traceFormat t a = effectiveFormat t a := by
    unfold effectiveFormat traceFormat
    rcases a.format with _ | f <;> rcases t.format with _ | g <;> rfl
  unfold Sensor.fromTrace
  simp only [heff]
  rcases effectiveFormat t a with _ | f
  · simp
  · by_cases hr : a.readHeader = true
    · simp only [hr, if_true]
      by_cases h1 : f = "SEG2"
      · simp only [h1, if_true]
        rcases t.seg2 with _ | h
        · simp
        · simp only [fromHeaderSeg2]
          split_ifs
          · simp
          · simp [hinit]
      · by_cases h2 : f = "SU"
        · subst h2
          rcases t.su with _ | h
          · simp
          · simp only [fromHeaderSu, h1, if_false, if_true]
            split_ifs <;> simp [hinit]
        · by_cases h3 : f = "SEGY"
          · subst h3
            rcases t.segy with _ | h
            · simp
            · simp only [fromHeaderSu, h1, h2, if_false, if_true]
              split_ifs <;> simp [hinit]
          · simp [h1, h2, h3]
    · simp [hr, hinit]

/-- **C14** (case does not matter, and the argument wins).  For a trace of any identified format, asking
for format `f` gives the same sensor as the trace being of format `f` itself, in whatever case `f` is
spelled. -/
theorem C14_explicit_format_wins (t : Trace) (a : TraceArgs) (f g : String)
    (hfg : f.toUpper = g.toUpper) (ht : t.format.isSome) :
    Sensor.fromTrace t { a with format := some f } =
      Sensor.fromTrace { t with format := some g } { a with format := none } := by
  have hn : t.format.isNone = false := by
    rcases h : t.format with _ | x <;> simp_all
  simp only [Sensor.fromTrace, traceFormat, Option.map_some, hfg, Option.isNone_some, hn]

/-- **C14 does not hold** for a trace without a format of its own: an explicit, supported format is
refused, because the header readers look for the format again. -/
theorem C14_explicit_format_refused_counterexample :
    Sensor.fromTrace ⟨[1, 2], 1, none, none, some [], none⟩ { format := some "SU" } =
      .error .valueError := by
  decide +kernel

/-- **C14** fails for every trace without a format of its own: whichever format is stated, no header is ever read. -/
theorem C14_no_own_format_fails (t : Trace) (a : TraceArgs) (ht : t.format = none) (hr : a.readHeader = true) :
    ∀ s, Sensor.fromTrace t a ≠ .ok s := by
  intro s h
  unfold Sensor.fromTrace at h
  rcases hf : traceFormat t a with _ | fmt <;> rw [hf] at h
  · cases h
  · simp only [hr, if_true, ht, Option.isNone_none] at h
    split_ifs at h
    all_goals first | cases h | (split at h <;> cases h)

/-- **C14** (headers ignored).  With `read_header=False` the result depends only on the samples, the time
step and the arguments. -/
theorem C14_no_header_influence (t t' : Trace) (a : TraceArgs) (hr : a.readHeader = false)
    (h1 : t.data = t'.data) (h2 : t.delta = t'.delta)
    (hf : effectiveFormat t a ≠ none) (hf' : effectiveFormat t' a ≠ none) :
    Sensor.fromTrace t a = Sensor.fromTrace t' a ∧
    ∀ s, Sensor.fromTrace t a = .ok s →
      s = ⟨⟨t.data, t.delta, a.nstacks, a.delay, 1⟩, a.x, a.y, a.z⟩ := by
  have key : ∀ u : Trace, effectiveFormat u a ≠ none →
      Sensor.fromTrace u a = Sensor.init u.data u.delta a.x a.y a.z a.nstacks a.delay := by
    intro u hu
    unfold effectiveFormat at hu
    unfold Sensor.fromTrace traceFormat
    rcases ha : a.format with _ | f
    · rcases ht : u.format with _ | g
      · simp [ha, ht] at hu
      · simp [hr]
    · simp [hr]
  refine ⟨by rw [key t hf, key t' hf', h1, h2], ?_⟩
  intro s hs
  rw [key t hf, Sensor.init_eq] at hs
  split_ifs at hs
  simpa using hs.symm

/-- **C14** (partial summary): together the four statements above give the dispatch rule; missing is an
explicit format for a trace without own format. -/
theorem C14_dispatch_partial (t : Trace) (a : TraceArgs) (s : Sensor)
    (h : Sensor.fromTrace t a = .ok s) :
    ∃ f, effectiveFormat t a = some f ∧ (a.readHeader = true → f ∈ ["SEG2", "SU", "SEGY"]) := by
  rcases he : effectiveFormat t a with _ | f
  · rw [C14_unidentified_format_refused t a he] at h; simp at h
  · refine ⟨f, rfl, ?_⟩
    intro hr
    by_contra hf
    have := (C14_other_formats_not_implemented t a).2 ⟨hr, f, he, hf⟩
    rw [this] at h; simp at h

example : effectiveFormat ⟨[1], 1, some "su", none, some [], none⟩ {} = some "SU" ∧
    Sensor.fromTrace ⟨[1], 1, some "su", none, some [], none⟩ {} = .ok ⟨⟨[1], 1, 1, 0, 1⟩, 0, 0, 0⟩ ∧
    Sensor.fromTrace ⟨[1], 1, some "mseed", none, none, none⟩ {} = .error .notImplementedError := by
  decide +kernel

/-- **C15** (SU and SEGY).  Reading succeeds for every header, whatever is missing or malformed, unless a
readable stack count is negative or a readable delay positive; and the values are the documented ones. -/
theorem C15_su_header_defaults (su : Bool) (h : Header) (data : List ℚ) (delta : ℚ) (mx my : ℚ → ℚ)
    (hst : ∀ n, readsInt h stackKey n → 0 ≤ n)
    (hde : ∀ d, readsInt h "delay_recording_time" d → d ≤ 0) :
    ∃ s, Sensor.fromTrace (suOrSegy su h data delta) { mapX := mx, mapY := my } = .ok s ∧
      s.ts.amp = data ∧ s.ts.dt = delta ∧ s.z = 0 ∧
      (noInt h stackKey → s.ts.nstacks = 1) ∧
      (∀ n, readsInt h stackKey n → s.ts.nstacks = if n = 0 then 1 else n) ∧
      (noInt h "delay_recording_time" → s.ts.delay = 0) ∧
      (∀ d, readsInt h "delay_recording_time" d → s.ts.delay = (d : ℚ) / 1000) ∧
      (noInt h "group_coordinate_x" → (∀ c, readsInt h scalarKey c → AllowedScalar c) → s.x = mx 0) ∧
      (∀ n, readsInt h "group_coordinate_x" n → (noInt h scalarKey ∨ readsInt h scalarKey 0) →
        s.x = mx n) := by
  rw [suOrSegy_fromTrace]
  unfold fromHeaderSu
  rw [Sensor.init_eq]
  have hn : 0 < (if safeInt h "number_of_horizontally_stacked_traces_yielding_this_trace" 1 = 0 then 1
      else safeInt h "number_of_horizontally_stacked_traces_yielding_this_trace" 1) := by
    unfold safeInt
    rcases hr : ((h.lookup "number_of_horizontally_stacked_traces_yielding_this_trace").bind HVal.toInt)
      with _ | n
    · simp
    · have := hst n hr
      simp only [Option.getD_some]
      split_ifs <;> omega
  have hd : ((safeInt h "delay_recording_time" 0 : ℤ) : ℚ) / 1000 ≤ 0 := by
    unfold safeInt
    rcases hr : ((h.lookup "delay_recording_time").bind HVal.toInt) with _ | d
    · simp
    · have := hde d hr
      simp only [Option.getD_some]
      apply div_nonpos_of_nonpos_of_nonneg
      · exact_mod_cast this
      · norm_num
  rw [if_pos ⟨hn, hd⟩]
  refine ⟨_, rfl, rfl, rfl, rfl, ?_, ?_, ?_, ?_, ?_, ?_⟩
  · intro h0; unfold noInt stackKey at h0; simp [safeInt, h0]
  · intro n h0; unfold readsInt stackKey at h0; simp [safeInt, h0]
  · intro h0; unfold noInt at h0; simp [safeInt, h0]
  · intro d h0; unfold readsInt at h0; simp [safeInt, h0]
  · intro h0 hall
    unfold noInt at h0
    obtain ⟨v, hr⟩ : ∃ v, (h.lookup "scalar_to_be_applied_to_all_coordinates").bind HVal.toInt = v :=
      ⟨_, rfl⟩
    rcases v with _ | c
    · simp [safeInt, h0, hr, scaleCoordinate_one]
    · simp only [safeInt, h0, hr, Option.getD_some, Option.getD_none]
      rcases hall c hr with rfl | ⟨k, rfl | rfl⟩
      · simp [scaleCoordinate_one]
      · have hp : (10 : ℤ) ^ k ≠ 0 := by positivity
        simp only [hp, if_false]
        rw [scaleCoordinate_pos]; simp [Spec.segyCoordinate]
      · have hp : -((10 : ℤ) ^ k) ≠ 0 := by
          have : (0 : ℤ) < 10 ^ k := by positivity
          omega
        simp only [hp, if_false]
        rw [scaleCoordinate_neg]; simp [Spec.segyCoordinate]
  · intro n h0 hsc
    unfold readsInt at h0
    unfold noInt readsInt scalarKey at hsc
    simp only [safeInt, h0, Option.getD_some]
    rcases hsc with hsc | hsc <;> simp [hsc, scaleCoordinate_one]

/-- **C15** (SEG2).  Reading succeeds for every SEG2 header unless a readable stack count is not positive or
a readable delay is positive.  Missing: a zero stack count, which is refused (see below). -/
theorem C15_seg2_header_defaults_partial (h : Header) (data : List ℚ) (delta : ℚ) (mx my : ℚ → ℚ)
    (hst : ∀ n, readsInt h "STACK" n → 0 < n)
    (hde : ∀ d, readsFloat h "DELAY" d → d ≤ 0) :
    ∃ s, Sensor.fromTrace ⟨data, delta, some "SEG2", some h, none, none⟩ { mapX := mx, mapY := my } =
        .ok s ∧ s.ts.amp = data ∧ s.ts.dt = delta ∧ s.y = my 0 ∧ s.z = 0 ∧
      (noInt h "STACK" → s.ts.nstacks = 1) ∧ (∀ n, readsInt h "STACK" n → s.ts.nstacks = n) ∧
      (noFloat h "DELAY" → s.ts.delay = 0) ∧ (∀ d, readsFloat h "DELAY" d → s.ts.delay = d) ∧
      (noFloat h "RECEIVER_LOCATION" → s.x = mx 0) ∧
      (∀ q, readsFloat h "RECEIVER_LOCATION" q → s.x = mx q) := by
  have u1 : "SEG2".toUpper = "SEG2" := by decide +kernel
  have hf : Sensor.fromTrace ⟨data, delta, some "SEG2", some h, none, none⟩
      { mapX := mx, mapY := my } = fromHeaderSeg2 data delta h mx my := by
    simp [Sensor.fromTrace, traceFormat, u1]
  rw [hf]
  unfold fromHeaderSeg2
  rw [Sensor.init_eq]
  have hn : 0 < safeInt h "STACK" 1 := by
    unfold safeInt
    rcases hr : ((h.lookup "STACK").bind HVal.toInt) with _ | n
    · simp
    · exact hst n hr
  have hd : safeFloat h "DELAY" 0 ≤ 0 := by
    unfold safeFloat
    rcases hr : ((h.lookup "DELAY").bind HVal.toFloat) with _ | n
    · simp
    · exact hde n hr
  rw [if_pos ⟨hn, hd⟩]
  refine ⟨_, rfl, rfl, rfl, rfl, rfl, ?_, ?_, ?_, ?_, ?_, ?_⟩
  · intro h0; unfold noInt at h0; simp [safeInt, h0]
  · intro n h0; unfold readsInt at h0; simp [safeInt, h0]
  · intro h0; unfold noFloat at h0; simp [safeFloat, h0]
  · intro n h0; unfold readsFloat at h0; simp [safeFloat, h0]
  · intro h0; unfold noFloat at h0; simp [safeFloat, h0]
  · intro n h0; unfold readsFloat at h0; simp [safeFloat, h0]

/-- **C15** (SEG2, exactly).  A SEG2 header is refused, with `ValueError`, exactly if a stack count which can be read
is not positive or a delay which can be read is positive. -/
theorem C15_seg2_refused_exactly_partial (h : Header) (data : List ℚ) (delta : ℚ) (mx my : ℚ → ℚ) :
    let out := Sensor.fromTrace ⟨data, delta, some "SEG2", some h, none, none⟩ { mapX := mx, mapY := my }
    (out = .error .valueError ↔ (∃ n, readsInt h "STACK" n ∧ n ≤ 0) ∨ ∃ d, readsFloat h "DELAY" d ∧ 0 < d) ∧
    (out = .error .valueError ∨ ∃ s, out = .ok s) := by
  intro out
  by_cases hc : (∃ n, readsInt h "STACK" n ∧ n ≤ 0) ∨ ∃ d, readsFloat h "DELAY" d ∧ 0 < d
  · have u1 : "SEG2".toUpper = "SEG2" := by decide +kernel
    have hf : out = fromHeaderSeg2 data delta h mx my := by simp [out, Sensor.fromTrace, traceFormat, u1]
    have : out = .error .valueError := by
      rw [hf]
      unfold fromHeaderSeg2
      rw [Sensor.init_eq, if_neg]
      rintro ⟨h1, h2⟩
      rcases hc with ⟨n, hn, hn0⟩ | ⟨d, hd, hd0⟩
      · unfold readsInt at hn
        simp only [safeInt, hn, Option.getD_some] at h1
        omega
      · unfold readsFloat at hd
        simp only [safeFloat, hd, Option.getD_some] at h2
        linarith
    exact ⟨⟨fun _ => hc, fun _ => this⟩, Or.inl this⟩
  · push Not at hc
    obtain ⟨s, hs, -⟩ := C15_seg2_header_defaults_partial h data delta mx my
      (fun n hn => hc.1 n hn) (fun d hd => hc.2 d hd)
    refine ⟨⟨fun he => ?_, fun he => ?_⟩, Or.inr ⟨s, hs⟩⟩
    · have : (Except.ok s : Except PyErr Sensor) = .error .valueError := hs.symm.trans he
      cases this
    · rcases he with ⟨n, hn, h0⟩ | ⟨d, hd, h0⟩
      · exact absurd (hc.1 n hn) (by omega)
      · exact absurd (hc.2 d hd) (by linarith)

/-- **C15** (SU and SEGY, exactly).  Such a header is refused, with `ValueError`, exactly if a stack count which can be
read is negative or a delay which can be read is positive. -/
theorem C15_su_refused_exactly (su : Bool) (h : Header) (data : List ℚ) (delta : ℚ) (mx my : ℚ → ℚ) :
    let out := Sensor.fromTrace (suOrSegy su h data delta) { mapX := mx, mapY := my }
    (out = .error .valueError ↔
      (∃ n, readsInt h stackKey n ∧ n < 0) ∨ ∃ d, readsInt h "delay_recording_time" d ∧ 0 < d) ∧
    (out = .error .valueError ∨ ∃ s, out = .ok s) := by
  intro out
  by_cases hc : (∃ n, readsInt h stackKey n ∧ n < 0) ∨ ∃ d, readsInt h "delay_recording_time" d ∧ 0 < d
  · have hf : out = fromHeaderSu data delta h mx my := suOrSegy_fromTrace su h data delta mx my
    have : out = .error .valueError := by
      rw [hf]
      unfold fromHeaderSu
      simp only
      rw [Sensor.init_eq, if_neg]
      rintro ⟨h1, h2⟩
      rcases hc with ⟨n, hn, hn0⟩ | ⟨d, hd, hd0⟩
      · unfold readsInt stackKey at hn
        simp only [safeInt, hn, Option.getD_some] at h1
        split_ifs at h1 <;> omega
      · unfold readsInt at hd
        simp only [safeInt, hd, Option.getD_some] at h2
        have : (0 : ℚ) < (d : ℚ) := by exact_mod_cast hd0
        linarith
    exact ⟨⟨fun _ => hc, fun _ => this⟩, Or.inl this⟩
  · push Not at hc
    obtain ⟨s, hs, -⟩ := C15_su_header_defaults su h data delta mx my
      (fun n hn => hc.1 n hn) (fun d hd => hc.2 d hd)
    refine ⟨⟨fun he => ?_, fun he => ?_⟩, Or.inr ⟨s, hs⟩⟩
    · have : (Except.ok s : Except PyErr Sensor) = .error .valueError := hs.symm.trans he
      cases this
    · rcases he with ⟨n, hn, h0⟩ | ⟨d, hd, h0⟩
      · exact absurd (hc.1 n hn) (by omega)
      · exact absurd (hc.2 d hd) (by omega)

/-- **C15** (counts written as numbers with a fraction).  A stack count `q ≥ 1` in a SEG2 or SU header is read as the
largest whole number not above it. -/
theorem C15_count_with_fraction (su : Bool) (h : Header) (data : List ℚ) (delta : ℚ) (mx my : ℚ → ℚ) (q : ℚ) (hq : 1 ≤ q) :
    (h.lookup "STACK" = some (.flt q) → (∀ d, readsFloat h "DELAY" d → d ≤ 0) →
      ∃ s, Sensor.fromTrace ⟨data, delta, some "SEG2", some h, none, none⟩ { mapX := mx, mapY := my } = .ok s ∧
        (s.ts.nstacks : ℚ) ≤ q ∧ q < s.ts.nstacks + 1) ∧
    (h.lookup stackKey = some (.flt q) → (∀ d, readsInt h "delay_recording_time" d → d ≤ 0) →
      ∃ s, Sensor.fromTrace (suOrSegy su h data delta) { mapX := mx, mapY := my } = .ok s ∧
        (s.ts.nstacks : ℚ) ≤ q ∧ q < s.ts.nstacks + 1) := by
  have h0 : (0 : ℚ) ≤ q := by linarith
  have hi : HVal.toInt (.flt q) = some ⌊q⌋ := by
    simp [HVal.toInt, pyInt, h0]
  have h1 : 1 ≤ ⌊q⌋ := Int.le_floor.2 (by simpa using hq)
  constructor
  · intro hl hd
    have hr : readsInt h "STACK" ⌊q⌋ := by
      unfold readsInt
      rw [hl]
      exact hi
    have hu : ∀ n, readsInt h "STACK" n → n = ⌊q⌋ := by
      intro n hn
      unfold readsInt at hn hr
      rw [hr, Option.some.injEq] at hn
      exact hn.symm
    obtain ⟨s, hs, -, -, -, -, -, g, -⟩ := C15_seg2_header_defaults_partial h data delta mx my
      (fun n hn => by rw [hu n hn]; omega) hd
    exact ⟨s, hs, by rw [g _ hr]; exact Int.floor_le q, by rw [g _ hr]; exact Int.lt_floor_add_one q⟩
  · intro hl hd
    have hr : readsInt h stackKey ⌊q⌋ := by
      unfold readsInt
      rw [hl]
      exact hi
    have hu : ∀ n, readsInt h stackKey n → n = ⌊q⌋ := by
      intro n hn
      unfold readsInt at hn hr
      rw [hr, Option.some.injEq] at hn
      exact hn.symm
    obtain ⟨s, hs, -, -, -, -, g, -⟩ := C15_su_header_defaults su h data delta mx my
      (fun n hn => by rw [hu n hn]; omega) hd
    have g' := g _ hr
    rw [if_neg (by omega)] at g'
    exact ⟨s, hs, by rw [g']; exact Int.floor_le q, by rw [g']; exact Int.lt_floor_add_one q⟩

example : Sensor.fromTrace ⟨[1], 1, some "SEG2", some [("STACK", .flt (7 / 2))], none, none⟩ {} =
    .ok ⟨⟨[1], 1, 3, 0, 1⟩, 0, 0, 0⟩ := by decide +kernel

/-- **C15 does not hold** for a SEG2 stack count of zero: it is refused rather than read as one. -/
theorem C15_seg2_zero_stack_counterexample :
    Sensor.fromTrace ⟨[1], 1, some "SEG2", some [("STACK", .int 0)], none, none⟩ {} =
      .error .valueError := by decide +kernel

/-- A header in which every field is missing or malformed. -/
example :
    let h : Header := [(stackKey, .text none none), ("group_coordinate_x", .text none (some 3))]
    noInt h stackKey ∧ noInt h "group_coordinate_x" ∧
    Sensor.fromTrace (suOrSegy false h [1, 2] 1) {} = .ok ⟨⟨[1, 2], 1, 1, 0, 1⟩, 0, 0, 0⟩ := by
  refine ⟨?_, ?_, ?_⟩
  · unfold noInt; decide +kernel
  · unfold noInt; decide +kernel
  · decide +kernel

end Verif.Props
