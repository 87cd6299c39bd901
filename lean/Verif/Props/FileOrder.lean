import Verif.Props.Files

/-!
# C139: the order of the files does not matter
-/

namespace Verif.Props
open Verif Arr Spec

/-! ## Two records stacked one after the other -/

theorem ats_ext {a b : ATS} (h1 : a.amp = b.amp) (h2 : a.dt = b.dt) (h3 : a.nstacks = b.nstacks)
    (h4 : a.delay = b.delay) (h5 : a.multiple = b.multiple) : a = b := by
  cases a; cases b; simp_all

theorem stack_twice (a b c : List ℚ) (n m k : ℚ) (h1 : n + m ≠ 0) (h2 : n + k ≠ 0) (hb : b.length = a.length)
    (hc : c.length = a.length) :
    (List.zipWith (fun (x y : ℚ) => x * (n + m) + y * k)
        ((List.zipWith (fun (x y : ℚ) => x * n + y * m) a b).map fun x => x / (n + m)) c).map (fun x => x / (n + m + k)) =
      (List.zipWith (fun (x y : ℚ) => x * (n + k) + y * m)
        ((List.zipWith (fun (x y : ℚ) => x * n + y * k) a c).map fun x => x / (n + k)) b).map (fun x => x / (n + k + m)) := by
  apply List.ext_getElem
  · simp [hb, hc]
  · intro i g1 g2
    simp only [List.getElem_map, List.getElem_zipWith]
    rw [div_mul_cancel₀ _ h1, div_mul_cancel₀ _ h2]
    congr 1 <;> ring

theorem ats_stack_swap {r t u r1 r2 : ATS} (hr : 0 < r.nstacks) (ht : 0 < t.nstacks) (hu : 0 < u.nstacks)
    (h1 : r.stackAppend t = (r1, .ok ())) (h2 : r1.stackAppend u = (r2, .ok ())) :
    ∃ r1', r.stackAppend u = (r1', .ok ()) ∧ r1'.stackAppend t = (r2, .ok ()) := by
  rw [ATS.stackAppend_ok_iff] at h1 h2
  obtain ⟨⟨a1, a2, a3⟩, rfl⟩ := h1
  obtain ⟨⟨b1, b2, b3⟩, rfl⟩ := h2
  simp only at b1 b2
  have b3' : r.nsamples = u.nsamples := by
    rw [← b3]; simp only [ATS.nsamples, List.length_map, List.length_zipWith] at a3 ⊢; omega
  refine ⟨{ r with
        amp := (List.zipWith (fun (x y : ℚ) => x * r.nstacks + y * u.nstacks) r.amp u.amp).map
                 (fun x => x / ((r.nstacks + u.nstacks : ℤ) : ℚ))
        nstacks := r.nstacks + u.nstacks }, (ATS.stackAppend_ok_iff _ _ _).2 ⟨⟨b1, b2, b3'⟩, rfl⟩,
    (ATS.stackAppend_ok_iff _ _ _).2 ⟨⟨a1, a2, ?_⟩, ats_ext ?_ rfl ?_ rfl rfl⟩⟩
  · rw [← a3]; simp only [ATS.nsamples, List.length_map, List.length_zipWith] at b3' ⊢; omega
  · simp only [Int.cast_add]
    have e1 : (0 : ℚ) < r.nstacks := by exact_mod_cast hr
    have e2 : (0 : ℚ) < t.nstacks := by exact_mod_cast ht
    have e3 : (0 : ℚ) < u.nstacks := by exact_mod_cast hu
    exact stack_twice r.amp t.amp u.amp r.nstacks t.nstacks u.nstacks (by positivity) (by positivity) a3.symm b3'.symm
  · simp only; ring

theorem ats_stack_comm {r t r1 : ATS} (hm : r.multiple = t.multiple) (h1 : r.stackAppend t = (r1, .ok ())) :
    t.stackAppend r = (r1, .ok ()) := by
  rw [ATS.stackAppend_ok_iff] at h1 ⊢
  obtain ⟨⟨a1, a2, a3⟩, rfl⟩ := h1
  refine ⟨⟨a1.symm, a2.symm, a3.symm⟩, ats_ext ?_ a1 (add_comm _ _) a2 hm⟩
  simp only
  rw [List.zipWith_comm, add_comm r.nstacks]
  simp only [add_comm]

theorem sensor_stack_swap {r t u r1 r2 : Sensor} (hr : 0 < r.ts.nstacks) (ht : 0 < t.ts.nstacks) (hu : 0 < u.ts.nstacks)
    (h1 : r.stackAppend t = (r1, .ok ())) (h2 : r1.stackAppend u = (r2, .ok ())) :
    ∃ r1', r.stackAppend u = (r1', .ok ()) ∧ r1'.stackAppend t = (r2, .ok ()) := by
  rw [Sensor.stackAppend_ok_iff] at h1 h2
  obtain ⟨x1, y1, z1, x1', y1', z1', s1⟩ := h1
  obtain ⟨x2, y2, z2, x2', y2', z2', s2⟩ := h2
  obtain ⟨q, q1, q2⟩ := ats_stack_swap hr ht hu s1 s2
  refine ⟨⟨q, r.x, r.y, r.z⟩, (Sensor.stackAppend_ok_iff _ _ _).2 ⟨?_, ?_, ?_, rfl, rfl, rfl, q1⟩,
    (Sensor.stackAppend_ok_iff _ _ _).2 ⟨x1, y1, z1, ?_, ?_, ?_, q2⟩⟩
  · rw [← x1', x2]
  · rw [← y1', y2]
  · rw [← z1', z2]
  · rw [x2', x1']
  · rw [y2', y1']
  · rw [z2', z1']

theorem sensor_stack_comm {r t r1 : Sensor} (hm : r.ts.multiple = t.ts.multiple) (h1 : r.stackAppend t = (r1, .ok ())) :
    t.stackAppend r = (r1, .ok ()) := by
  rw [Sensor.stackAppend_ok_iff] at h1 ⊢
  obtain ⟨x1, y1, z1, x1', y1', z1', s1⟩ := h1
  exact ⟨x1.symm, y1.symm, z1.symm, x1'.trans x1, y1'.trans y1, z1'.trans z1, ats_stack_comm hm s1⟩

theorem sensor_stack_pos {r t r1 : Sensor} (hr : 0 < r.ts.nstacks) (ht : 0 < t.ts.nstacks)
    (h1 : r.stackAppend t = (r1, .ok ())) : 0 < r1.ts.nstacks := by
  rw [Sensor.stackAppend_ok_iff] at h1
  have := ((ATS.stackAppend_ok_iff _ _ _).1 h1.2.2.2.2.2.2).2
  rw [this]
  simp only
  omega

/-! ## Two files stacked one after the other -/

theorem stackTraces_keeps_pos : ∀ {ss ss' : List Sensor} {ts : List Trace}, (∀ s ∈ ss, 0 < s.ts.nstacks) →
    stackTraces ss ts = .ok ss' → ∀ s ∈ ss', 0 < s.ts.nstacks := by
  intro ss
  induction ss with
  | nil => intro ss' ts _ h; cases ts <;> (simp only [stackTraces, Except.ok.injEq] at h; subst h; simp)
  | cons r ss ih =>
    intro ss' ts hp h
    rcases ts with _ | ⟨t, ts⟩
    · simp only [stackTraces, Except.ok.injEq] at h; subst h; exact hp
    · unfold stackTraces at h
      rcases hn : Sensor.fromTrace t {} with e | n
      · simp [hn] at h
      rcases hs : r.stackAppend n with ⟨r', e | u⟩
      · simp [hn, hs] at h
      rcases hr : stackTraces ss ts with e | rs
      · simp [hn, hs, hr] at h
      simp only [hn, hs, hr, Except.ok.injEq] at h
      subst h
      intro s hs'
      rcases List.mem_cons.1 hs' with rfl | hs'
      · exact sensor_stack_pos (hp r (by simp)) (Sensor.fromTrace_pos rfl hn).1 hs
      · exact ih (fun s h => hp s (by simp [h])) hr s hs'

theorem stackTraces_cons {r : Sensor} {ss ss' : List Sensor} {t : Trace} {ts : List Trace}
    (h : stackTraces (r :: ss) (t :: ts) = .ok ss') :
    ∃ n r' rs, Sensor.fromTrace t {} = .ok n ∧ r.stackAppend n = (r', .ok ()) ∧ stackTraces ss ts = .ok rs ∧
      ss' = r' :: rs := by
  unfold stackTraces at h
  rcases hn : Sensor.fromTrace t {} with e | n
  · simp [hn] at h
  rcases hs : r.stackAppend n with ⟨r', e | u⟩
  · simp [hn, hs] at h
  rcases hr : stackTraces ss ts with e | rs
  · simp [hn, hs, hr] at h
  simp only [hn, hs, hr, Except.ok.injEq] at h
  exact ⟨n, r', rs, rfl, hs, rfl, h.symm⟩

theorem stackTraces_nil (ss : List Sensor) : stackTraces ss [] = .ok ss := by cases ss <;> rfl

theorem stackTraces_swap : ∀ {ss s1 s2 : List Sensor} {ts us : List Trace}, (∀ s ∈ ss, 0 < s.ts.nstacks) →
    stackTraces ss ts = .ok s1 → stackTraces s1 us = .ok s2 →
    ∃ s1', stackTraces ss us = .ok s1' ∧ stackTraces s1' ts = .ok s2 := by
  intro ss
  induction ss with
  | nil =>
    intro s1 s2 ts us _ h1 h2
    have e1 : s1 = [] := by cases ts <;> (simp only [stackTraces, Except.ok.injEq] at h1; exact h1.symm)
    subst e1
    have e2 : s2 = [] := by cases us <;> (simp only [stackTraces, Except.ok.injEq] at h2; exact h2.symm)
    subst e2
    exact ⟨[], by cases us <;> rfl, by cases ts <;> rfl⟩
  | cons r ss ih =>
    intro s1 s2 ts us hp h1 h2
    rcases ts with _ | ⟨t, ts⟩
    · rw [stackTraces_nil, Except.ok.injEq] at h1
      subst h1
      exact ⟨s2, h2, stackTraces_nil s2⟩
    rcases us with _ | ⟨u, us⟩
    · rw [stackTraces_nil, Except.ok.injEq] at h2
      subst h2
      exact ⟨_, stackTraces_nil _, h1⟩
    obtain ⟨n, r1, rs, a1, a2, a3, rfl⟩ := stackTraces_cons h1
    obtain ⟨k, r2, rs2, b1, b2, b3, rfl⟩ := stackTraces_cons h2
    obtain ⟨q, q1, q2⟩ := sensor_stack_swap (hp r (by simp)) (Sensor.fromTrace_pos rfl a1).1
      (Sensor.fromTrace_pos rfl b1).1 a2 b2
    obtain ⟨l, l1, l2⟩ := ih (fun s h => hp s (by simp [h])) a3 b3
    exact ⟨q :: l, by simp only [stackTraces, b1, q1, l1], by simp only [stackTraces, a1, q2, l2]⟩

theorem stackFiles_cons {fs : Fs} {format : String} {mapX mapY : ℚ → ℚ} {src : Source} {ss out : List Sensor}
    {f : String} {rest : List String} :
    stackFiles fs format mapX mapY src ss (f :: rest) = .ok out ↔
      ∃ t ts nsrc ss1, fs f = some (t :: ts) ∧ parseSource format mapX mapY t = .ok nsrc ∧ nsrc.eq src = true ∧
        stackTraces ss (t :: ts) = .ok ss1 ∧ stackFiles fs format mapX mapY src ss1 rest = .ok out := by
  constructor
  · intro h
    unfold stackFiles readFile at h
    rcases hf : fs f with _ | ts
    · simp [hf] at h
    rcases ts with _ | ⟨t, ts⟩
    · simp [hf] at h
    rcases hp : parseSource format mapX mapY t with e | nsrc
    · simp [hf, hp] at h
    by_cases he : nsrc.eq src = true
    · rcases hst : stackTraces ss (t :: ts) with e | ss1
      · simp [hf, hp, he, hst] at h
      simp only [hf, hp, he, hst, Bool.not_true, Bool.false_eq_true, if_false] at h
      exact ⟨t, ts, nsrc, ss1, rfl, hp, he, hst, h⟩
    · simp [hf, hp, he] at h
  · rintro ⟨t, ts, nsrc, ss1, h1, h2, h3, h4, h5⟩
    unfold stackFiles readFile
    simp only [h1, h2, h3, h4, Bool.not_true, Bool.false_eq_true, if_false]
    exact h5

theorem stackFiles_perm {fs : Fs} {format : String} {mapX mapY : ℚ → ℚ} {src : Source} {l l' : List String}
    (h : l.Perm l') : ∀ {ss out : List Sensor}, (∀ s ∈ ss, 0 < s.ts.nstacks) →
      stackFiles fs format mapX mapY src ss l = .ok out → stackFiles fs format mapX mapY src ss l' = .ok out := by
  induction h with
  | nil => intro ss out _ h; exact h
  | cons f _ ih =>
    intro ss out hp h
    obtain ⟨t, ts, nsrc, ss1, h1, h2, h3, h4, h5⟩ := stackFiles_cons.1 h
    exact stackFiles_cons.2 ⟨t, ts, nsrc, ss1, h1, h2, h3, h4, ih (stackTraces_keeps_pos hp h4) h5⟩
  | swap f g l =>
    intro ss out hp h
    obtain ⟨t, ts, nsrc, ss1, h1, h2, h3, h4, h5⟩ := stackFiles_cons.1 h
    obtain ⟨u, us, msrc, ss2, g1, g2, g3, g4, g5⟩ := stackFiles_cons.1 h5
    obtain ⟨s', k1, k2⟩ := stackTraces_swap hp h4 g4
    exact stackFiles_cons.2 ⟨u, us, msrc, s', g1, g2, g3, k1, stackFiles_cons.2 ⟨t, ts, nsrc, ss2, h1, h2, h3, k2, g5⟩⟩
  | trans _ _ ih1 ih2 => intro ss out hp h; exact ih2 hp (ih1 hp h)

theorem fromFiles_intro {fs : Fs} {f0 : String} {rest : List String} {mapX mapY : ℚ → ℚ} {traces : List Trace}
    {sensors ss : List Sensor} {t : Trace} {format : String} {src : Source} {obj : Arr} (h1 : fs f0 = some traces)
    (h2 : sensorsOf { mapX := mapX, mapY := mapY } traces = .ok sensors) (h3 : traces.getLast? = some t)
    (h4 : t.format = some format) (h5 : parseSource format mapX mapY t = .ok src) (h6 : Arr.init sensors src = .ok obj)
    (h7 : stackFiles fs format mapX mapY src obj.sensors rest = .ok ss) :
    fromFiles fs (f0 :: rest) mapX mapY = .ok ⟨ss, src⟩ := by
  have := (init_consistent h6).2.2
  unfold fromFiles readFile
  simp only [h1, h2, h3, h4, h5, h6, h7, this]

/-- **C139** (additional files).  Reading the additional files in another order gives the same array, whatever they
contain and whatever the mappings are. -/
theorem C139_order_of_additional_files (fs : Fs) (f0 : String) (l l' : List String) (mapX mapY : ℚ → ℚ) (a : Arr)
    (hp : l.Perm l') (h : fromFiles fs (f0 :: l) mapX mapY = .ok a) : fromFiles fs (f0 :: l') mapX mapY = .ok a := by
  obtain ⟨traces, sensors, t, format, obj, g1, g2, g3, g4, g5, g6, g7⟩ := fromFiles_ok h
  have hpos : ∀ s ∈ obj.sensors, 0 < s.ts.nstacks := by
    intro s hs
    obtain ⟨tr, -, ht⟩ := forall₂_mem_right g2 ((init_consistent g6).2.1.mem_iff.1 hs)
    exact (Sensor.fromTrace_pos rfl ht).1
  exact fromFiles_intro g1 (sensorsOf_ok.2 g2) g3 g4 g5 g6 (stackFiles_perm hp hpos g7)

/-- A file which states one format and one source in all its traces, lists its receivers in order of their positions,
and is accepted on its own. -/
structure Orderly (fs : Fs) (format : String) (src : Source) (n : ℕ) (f : String) : Prop where
  alone : ∃ a, fromFiles fs [f] id id = .ok a
  channels : ∃ ts, fs f = some ts ∧ ts.length = n
  formats : ∀ ts, fs f = some ts → ∀ t ∈ ts, t.format = some format
  source : ∀ ts, fs f = some ts → ∀ t ∈ ts, parseSource format id id t = .ok src
  ascending : ∀ ts ss, fs f = some ts → List.Forall₂ (fun t s => Sensor.fromTrace t {} = .ok s) ts ss →
    ss.Pairwise fun s t => s.x < t.x

theorem stackTraces_comm : ∀ {ts us : List Trace} {rs qs out : List Sensor}, ts.length = us.length →
    List.Forall₂ (fun t s => Sensor.fromTrace t {} = .ok s) ts rs →
    List.Forall₂ (fun t s => Sensor.fromTrace t {} = .ok s) us qs →
    stackTraces rs us = .ok out → stackTraces qs ts = .ok out := by
  intro ts us rs qs out hl h1
  induction h1 generalizing us qs out with
  | nil =>
    intro h2 h
    have : us = [] := List.length_eq_zero_iff.1 hl.symm
    subst this
    cases h2
    exact h
  | cons hr _ ih =>
    rename_i t r ts rs _
    intro h2 h
    rcases us with _ | ⟨u, us⟩
    · simp at hl
    cases h2 with
    | cons hq h2 =>
      rename_i q qs
      obtain ⟨k, r', rs', b1, b2, b3, rfl⟩ := stackTraces_cons h
      rw [hq, Except.ok.injEq] at b1
      subst b1
      have hm : r.ts.multiple = q.ts.multiple := by
        rw [(Sensor.fromTrace_pos rfl hr).2.2, (Sensor.fromTrace_pos rfl hq).2.2]
      simp only [stackTraces, hr, sensor_stack_comm hm b2, ih (by simpa using hl) h2 b3]

theorem fromFiles_swap (fs : Fs) (format : String) (src : Source) (n : ℕ) (f g : String) (l : List String) (a : Arr)
    (hf : Orderly fs format src n f) (hg : Orderly fs format src n g)
    (h : fromFiles fs (f :: g :: l) id id = .ok a) : fromFiles fs (g :: f :: l) id id = .ok a := by
  obtain ⟨traces, sensors, t, fmt, obj, g1, g2, g3, g4, g5, g6, g7⟩ := fromFiles_ok h
  obtain ⟨u, us, nsrc, ss1, k1, k2, k3, k4, k5⟩ := stackFiles_cons.1 g7
  obtain ⟨ag, hag⟩ := hg.alone
  obtain ⟨utr, qs, ul, fmt', objg, m1, m2, m3, m4, m5, m6, m7⟩ := fromFiles_ok hag
  rw [k1, Option.some.injEq] at m1
  subst m1
  have hfmt : fmt = format := by
    have := hf.formats _ g1 t (List.mem_of_getLast? g3)
    rw [g4] at this; simpa using this
  have hfmt' : fmt' = format := by
    have := hg.formats _ k1 ul (List.mem_of_getLast? m3)
    rw [m4] at this; simpa using this
  subst hfmt
  subst hfmt'
  have hs1 : a.source = src := by
    have := hf.source _ g1 t (List.mem_of_getLast? g3)
    rw [g5] at this; simpa using this
  have hs2 : ag.source = src := by
    have := hg.source _ k1 ul (List.mem_of_getLast? m3)
    rw [m5] at this; simpa using this
  -- sensors in ascending order are not moved
  have keep : ∀ {ss : List Sensor} {o : Arr}, ss.Pairwise (fun s t => s.x < t.x) → Arr.init ss src = .ok o →
      o.sensors = ss := by
    intro ss o hsrt ho
    obtain ⟨⟨-, c1, -⟩, c2, -⟩ := init_consistent ho
    refine List.Perm.eq_of_pairwise (fun s t _ _ h1 h2 => ?_) c1 hsrt c2
    exact absurd h1 (by have := h2; linarith)
  have e1 : obj.sensors = sensors := keep (hf.ascending _ _ g1 g2) (by rw [← hs1]; exact g6)
  have e2 : objg.sensors = qs := keep (hg.ascending _ _ k1 m2) (by rw [← hs2]; exact m6)
  rw [e1] at k4
  obtain ⟨ts', l1, l2⟩ := hf.channels
  obtain ⟨us', l3, l4⟩ := hg.channels
  rw [g1, Option.some.injEq] at l1
  rw [k1, Option.some.injEq] at l3
  subst l1
  subst l3
  have k4' := stackTraces_comm (by rw [l2, l4]) g2 m2 k4
  rcases traces with _ | ⟨t0, ts0⟩
  · simp at g3
  have hsrc0 : parseSource _ id id t0 = .ok src := hf.source _ g1 t0 (by simp)
  have : a = ⟨a.sensors, src⟩ := by rw [← hs1]
  rw [this]
  refine fromFiles_intro (obj := objg) k1 (sensorsOf_ok.2 m2) m3 m4 (by rw [← hs2]; exact m5) (by rw [← hs2]; exact m6) ?_
  rw [e2]
  refine stackFiles_cons.2 ⟨t0, ts0, src, ss1, g1, hsrc0, ?_, k4', ?_⟩
  · have hk := hg.source _ k1 u (by simp)
    rw [k2, Except.ok.injEq] at hk
    rw [hk, hs1] at k3
    exact k3
  · rw [← hs1]; exact k5

/-- **C139** (all files).  For files which each state one format and one source (the same for all files), list the same
number of receivers in order of their positions, and are accepted on their own, any order of the files gives the same
array. -/
theorem C139_order_of_files (fs : Fs) (format : String) (src : Source) (n : ℕ) (l l' : List String) (a : Arr)
    (ho : ∀ f ∈ l, Orderly fs format src n f) (hp : l.Perm l') (h : fromFiles fs l id id = .ok a) :
    fromFiles fs l' id id = .ok a := by
  induction hp generalizing a with
  | nil => exact h
  | cons f hp _ => exact C139_order_of_additional_files fs f _ _ id id a hp h
  | swap f g l => exact fromFiles_swap fs format src n g f l a (ho g (by simp)) (ho f (by simp)) h
  | trans h1 _ ih1 ih2 => exact ih2 a (fun f hf => ho f (h1.mem_iff.2 hf)) (ih1 a ho h)

theorem exFs_orderly : ∀ f ∈ ["a", "b"], Orderly exFs "SEG2" ⟨-5, 0, 0⟩ 2 f := by
  have key : ∀ f x y p q, exFs f = some [x, y] → Sensor.fromTrace x {} = .ok p → Sensor.fromTrace y {} = .ok q →
      p.x < q.x → ∀ ts ss, exFs f = some ts → List.Forall₂ (fun t s => Sensor.fromTrace t {} = .ok s) ts ss →
      ss.Pairwise fun s t => s.x < t.x := by
    intro f x y p q h h1 h2 hlt ts ss hts hss
    rw [h, Option.some.injEq] at hts
    subst hts
    cases hss with
    | cons a1 a2 =>
      cases a2 with
      | cons b1 b2 =>
        cases b2
        rw [h1, Except.ok.injEq] at a1
        rw [h2, Except.ok.injEq] at b1
        subst a1
        subst b1
        simpa using hlt
  intro f hf
  rcases List.mem_cons.1 hf with rfl | hf
  · refine ⟨⟨⟨[⟨⟨[1, 2], 1 / 1000, 1, 0, 1⟩, 0, 0, 0⟩, ⟨⟨[3, 4], 1 / 1000, 1, 0, 1⟩, 2, 0, 0⟩], ⟨-5, 0, 0⟩⟩,
      by decide +kernel⟩, ⟨_, rfl, rfl⟩, ?_, ?_,
      key "a" _ _ ⟨⟨[1, 2], 1 / 1000, 1, 0, 1⟩, 0, 0, 0⟩ ⟨⟨[3, 4], 1 / 1000, 1, 0, 1⟩, 2, 0, 0⟩ rfl
        (by decide +kernel) (by decide +kernel) (by norm_num)⟩
    · intro ts h
      obtain rfl : [seg2 0 (-5) 1 [1, 2], seg2 2 (-5) 1 [3, 4]] = ts := Option.some.inj h
      decide +kernel
    · intro ts h
      obtain rfl : [seg2 0 (-5) 1 [1, 2], seg2 2 (-5) 1 [3, 4]] = ts := Option.some.inj h
      decide +kernel
  · rcases List.mem_singleton.1 hf with rfl
    refine ⟨⟨⟨[⟨⟨[5, 6], 1 / 1000, 3, 0, 1⟩, 0, 0, 0⟩, ⟨⟨[7, 0], 1 / 1000, 3, 0, 1⟩, 2, 0, 0⟩], ⟨-5, 0, 0⟩⟩,
      by decide +kernel⟩, ⟨_, rfl, rfl⟩, ?_, ?_,
      key "b" _ _ ⟨⟨[5, 6], 1 / 1000, 3, 0, 1⟩, 0, 0, 0⟩ ⟨⟨[7, 0], 1 / 1000, 3, 0, 1⟩, 2, 0, 0⟩ rfl
        (by decide +kernel) (by decide +kernel) (by norm_num)⟩
    · intro ts h
      obtain rfl : [seg2 0 (-5) 3 [5, 6], seg2 2 (-5) 3 [7, 0]] = ts := Option.some.inj h
      decide +kernel
    · intro ts h
      obtain rfl : [seg2 0 (-5) 3 [5, 6], seg2 2 (-5) 3 [7, 0]] = ts := Option.some.inj h
      decide +kernel

example : fromFiles exFs ["b", "a", "a"] id id = fromFiles exFs ["a", "b", "a"] id id := by decide +kernel
example : fromFiles exFs ["a", "a", "b"] id id = fromFiles exFs ["a", "b", "a"] id id := by decide +kernel

/-- **C139**: without these hypotheses the choice of the first file matters.  A file whose channels carry unequal stack
counts is refused as the first file and accepted as an additional one; a file which lists its receivers in descending
order is accepted only as the first one. -/
theorem C139_first_file_matters :
    (∃ a, fromFiles exFs ["a", "uneven stacks"] id id = .ok a) ∧
    fromFiles exFs ["uneven stacks", "a"] id id = .error .valueError ∧
    (∃ a, fromFiles exFs ["descending", "a"] id id = .ok a) ∧
    fromFiles exFs ["a", "descending"] id id = .error .valueError := by
  have key : ∀ {l : List String}, (fromFiles exFs l id id).toOption.isSome = true → ∃ a, fromFiles exFs l id id = .ok a := by
    intro l h
    rcases hl : fromFiles exFs l id id with e | a
    · simp [hl, Except.toOption] at h
    · exact ⟨a, rfl⟩
  exact ⟨key (by decide +kernel), by decide +kernel, key (by decide +kernel), by decide +kernel⟩

end Verif.Props
