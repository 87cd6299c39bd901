import Verif.Props.OneFile
import Verif.Props.RunReturns
import Verif.Props.FreqMuted

/-!
# C186: in a frequency-domain stack only the share of each file counts
-/

namespace Verif.Props
open Verif Workflow

namespace Shares

/-- Two lists in which every entry has the same share: `k` copies of the one have the entries of `m` copies of the
other. -/
theorem sums {α : Type} [DecidableEq α] {l l' : List α} {k m : ℕ}
    (h : ∀ a, k * l.count a = m * l'.count a) (g : α → ℂ) : (k : ℂ) * (l.map g).sum = m * (l'.map g).sum := by
  have hc : ∀ (x : List α) (j : ℕ) a, ((List.replicate j x).flatten).count a = j * x.count a := by
    intro x j a
    induction j with
    | zero => simp
    | succ j ih => rw [List.replicate_succ, List.flatten_cons, List.count_append, ih]; ring
  have hs : ∀ (x : List α) (j : ℕ), (((List.replicate j x).flatten).map g).sum = (j : ℂ) * (x.map g).sum := by
    intro x j
    induction j with
    | zero => simp
    | succ j ih =>
      rw [List.replicate_succ, List.flatten_cons, List.map_append, List.sum_append, ih]
      push_cast
      ring
  have hp : ((List.replicate k l).flatten).Perm (List.replicate m l').flatten := by
    rw [List.perm_iff_count]
    intro a
    rw [hc, hc, h a]
  rw [← hs, ← hs]
  exact (hp.map g).sum_eq

theorem lengths {α : Type} [DecidableEq α] {l l' : List α} {k m : ℕ}
    (h : ∀ a, k * l.count a = m * l'.count a) : (k : ℂ) * l.length = m * l'.length := by
  simpa using sums h fun _ => 1

/-- Without muting neither the window nor the lines matter. -/
theorem perFile_fixed {env : Env} {set : Settings} {kw kw' : Option Kwargs}
    {lines lines' : Option Arr.Line × Option Arr.Line} {f : String} {level muted : Arr} {T : Transform}
    (hm : set.muteApply = true → kw = kw' ∧ lines = lines') (h : Spec.PerFile env set kw lines f level muted T) :
    Spec.PerFile env set kw' lines' f level muted T := by
  obtain ⟨raw, near, cut, padded, h1, h2, ⟨p1, p2, p3, p4, p5, p6⟩, h4⟩ := h
  refine ⟨raw, near, cut, padded, h1, h2, ⟨p1, p2, p3, p4, ?_, p6⟩, h4⟩
  by_cases c : set.muteApply = true
  · obtain ⟨rfl, rfl⟩ := hm c
    exact p5
  · rw [if_neg c] at p5 ⊢
    exact p5

/-- A file has one transform. -/
theorem perFile_unique {env : Env} {set : Settings} {kw : Option Kwargs}
    {lines : Option Arr.Line × Option Arr.Line} {f : String} {level muted level' muted' : Arr} {T T' : Transform}
    (h : Spec.PerFile env set kw lines f level muted T) (h' : Spec.PerFile env set kw lines f level' muted' T') :
    T = T' := by
  obtain ⟨raw, near, cut, padded, h1, -, ⟨p1, p2, p3, p4, p5, p6⟩, tr, h4, h5⟩ := h
  obtain ⟨raw', near', cut', padded', h1', -, ⟨p1', p2', p3', p4', p5', p6'⟩, tr', h4', h5'⟩ := h'
  rw [h1] at h1'
  cases h1'
  rw [p1] at p1'
  cases p1'
  have hl : level = level' := by
    cases level; cases level'
    simp only at p2 p2' p3 p3'
    rw [p2, p3, p2', p3']
  subst hl
  have hc : cut = cut' := by
    split_ifs at p4 p4'
    · rw [p4] at p4'; cases p4'; rfl
    · rw [p4, p4']
  subst hc
  have hmu : muted = muted' := by
    split_ifs at p5 p5'
    · rw [p5] at p5'; cases p5'; rfl
    · rw [p5, p5']
  subst hmu
  have hpd : padded = padded' := by
    split_ifs at p6 p6'
    · rw [p6] at p6'; cases p6'; rfl
    · rw [p6, p6']
  subst hpd
  rw [h4] at h4'
  cases h4'
  rw [h5] at h5'
  cases h5'
  rfl

/-- A run, taken apart. -/
theorem run_iff {env : Env} {set : Settings} {f0 : String} {rest : List String} {r : Result} :
    frequencyDomain env set (.many (f0 :: rest)) = .ok r ↔
    ∃ ex t0 tc s1 T0 t1 sf s' q, exampleArray env set f0 = .ok ex ∧ Workflow.empty ex set = .ok t0 ∧
      env.transforms.createClass set.transform = .ok tc ∧ freqFile env set ex none f0 = .ok (s1, T0) ∧
      Workflow.stack t0 T0 = .ok t1 ∧ freqLoop env set ex (some s1) t1 rest = .ok (some sf, r.transform) ∧
      calculateSnr set sf = .ok (s', q) ∧ r = ⟨r.transform, s'.array, q, s'⟩ := by
  constructor
  · intro h
    simp only [frequencyDomain, freqFiles] at h
    obtain ⟨ex, hex, h⟩ := bind_ok h
    obtain ⟨t0, ht0, h⟩ := bind_ok h
    obtain ⟨tc, htc, h⟩ := bind_ok h
    obtain ⟨⟨st, t⟩, hloop, h⟩ := bind_ok h
    simp only [freqLoop] at hloop
    obtain ⟨⟨s1, T0⟩, h1, hloop⟩ := bind_ok hloop
    simp only at hloop
    obtain ⟨t1, h2, hloop⟩ := bind_ok hloop
    rcases st with _ | sf
    · cases h
    simp only at h
    obtain ⟨⟨s', q⟩, hq, h⟩ := bind_ok h
    cases h
    exact ⟨ex, t0, tc, s1, T0, t1, sf, s', q, hex, lift_ok ht0, lift_ok htc, h1, lift_ok h2, hloop, hq, rfl⟩
  · rintro ⟨ex, t0, tc, s1, T0, t1, sf, s', q, h1, h2, h3, h4, h5, h6, h7, h8⟩
    rw [h8]
    simp only [frequencyDomain, freqFiles, h1, h2, h3, bind, Except.bind, lift, freqLoop, h4, h5, h6, h7, pure,
      Except.pure]

/-- The lines and windows of a run are those of its first file. -/
theorem loop_keeps {env : Env} {set : Settings} {ex : Arr} {f0 : String} {rest : List String} {s1 sf : State}
    {T0 t1 t : Transform} (h4 : freqFile env set ex none f0 = .ok (s1, T0))
    (h6 : freqLoop env set ex (some s1) t1 rest = .ok (some sf, t)) :
    sf.signalStart = s1.signalStart ∧ sf.signalEnd = s1.signalEnd ∧ sf.noise = s1.noise ∧ sf.signal = s1.signal := by
  obtain ⟨-, c2, level, muted, -, c4, -⟩ := freqFile_first h4
  obtain ⟨sf', Ts, e, r2, r3, r4, r5, -⟩ := freqLoop_later rest s1 t1 _ _ c2
    (by intro hp; obtain ⟨n, s, e1, e2, -⟩ := c4 hp; rw [e1, e2]; exact ⟨rfl, rfl⟩) h6
  cases e
  exact ⟨r2, r3, r4, r5⟩

/-- The signal-to-noise ratio comes from the windows only. -/
theorem snr_windows {set : Settings} {s s2 s' : State} {q : Option (List ℚ × List ℝ)}
    (h : calculateSnr set s = .ok (s', q)) (hn : s2.noise = s.noise) (hs : s2.signal = s.signal) :
    ∃ s2', calculateSnr set s2 = .ok (s2', q) := by
  unfold calculateSnr at h ⊢
  by_cases c : set.snrPerform = true
  · rw [if_pos c] at h ⊢
    rw [hn, hs]
    rcases ha : s.signal with _ | a
    · rw [ha] at h; cases h
    rcases hb : s.noise with _ | b
    · rw [ha, hb] at h; cases h
    rw [ha, hb] at h
    simp only at h ⊢
    rcases hq : WT.snr a b set.fmin set.fmax set.snrPad set.snrDf with ⟨⟨w1, w2⟩, e | v⟩
    · rw [hq] at h; cases h
    · rw [hq] at h
      cases h
      exact ⟨_, rfl⟩
  · rw [if_neg c] at h ⊢
    cases h
    exact ⟨_, rfl⟩

/-- Two runs with the same first file have the same lines and the same ratio. -/
theorem first_fixes {env : Env} {set : Settings} {f0 : String} {rest rest' : List String} {r r' : Result}
    (h : frequencyDomain env set (.many (f0 :: rest)) = .ok r)
    (h' : frequencyDomain env set (.many (f0 :: rest')) = .ok r') :
    (r'.final.signalStart, r'.final.signalEnd) = (r.final.signalStart, r.final.signalEnd) ∧ r'.snr = r.snr := by
  obtain ⟨ex, t0, tc, s1, T0, t1, sf, s', q, h1, h2, h3, h4, h5, h6, h7, h8⟩ := run_iff.1 h
  obtain ⟨ex', t0', tc', s1', T0', t1', sf', s'', q', g1, g2, g3, g4, g5, g6, g7, g8⟩ := run_iff.1 h'
  rw [h1] at g1; cases g1
  rw [h4] at g4; cases g4
  obtain ⟨a1, a2, a3, a4⟩ := loop_keeps h4 h6
  obtain ⟨b1, b2, b3, b4⟩ := loop_keeps h4 g6
  obtain ⟨k0, -, -⟩ := calculateSnr_ok h7
  obtain ⟨k0', -, -⟩ := calculateSnr_ok g7
  obtain ⟨s2', hs2⟩ := snr_windows (s2 := sf') h7 (b3.trans a3.symm) (b4.trans a4.symm)
  rw [g7] at hs2
  cases hs2
  rw [g8, h8]
  refine ⟨?_, rfl⟩
  show (s''.signalStart, s''.signalEnd) = (s'.signalStart, s'.signalEnd)
  rw [k0, k0']
  show (sf'.signalStart, sf'.signalEnd) = (sf.signalStart, sf.signalEnd)
  rw [a1, a2, b1, b2]

/-- The sum over the transforms of the files is a sum over their names. -/
theorem sum_names {env : Env} {set : Settings} {lines : Option Arr.Line × Option Arr.Line} {l : List String}
    {Ts : List Transform} (h : List.Forall₂ (fun f T => ∃ level muted, Spec.PerFile env set none lines f level muted T) l Ts)
    (val : String → ℂ) (g : Transform → ℂ)
    (hv : ∀ f level muted T, Spec.PerFile env set none lines f level muted T → val f = g T) :
    (Ts.map g).sum = (l.map val).sum := by
  induction h with
  | nil => rfl
  | cons h _ ih =>
    obtain ⟨level, muted, h⟩ := h
    simp only [List.map_cons, List.sum_cons, ih, hv _ _ _ _ h]

open Classical in
/-- A number of a file's transform. -/
noncomputable def value (env : Env) (set : Settings) (lines : Option Arr.Line × Option Arr.Line) (g : Transform → ℂ)
    (f : String) : ℂ :=
  if h : ∃ level muted T, Spec.PerFile env set none lines f level muted T then g h.choose_spec.choose_spec.choose else 0

theorem value_eq {env : Env} {set : Settings} {lines : Option Arr.Line × Option Arr.Line} {g : Transform → ℂ}
    {f : String} {level muted : Arr} {T : Transform} (h : Spec.PerFile env set none lines f level muted T) :
    value env set lines g f = g T := by
  have he : ∃ level muted T, Spec.PerFile env set none lines f level muted T := ⟨_, _, _, h⟩
  unfold value
  rw [dif_pos he, perFile_unique he.choose_spec.choose_spec.choose_spec h]

/-- Matrices of one shape with the same cells are equal. -/
theorem power_ext {m m' : List (List ℂ)} {nvel nfrq : ℕ} (h : HasShape m nvel nfrq) (h' : HasShape m' nvel nfrq)
    (hc : ∀ v c, v < nvel → c < nfrq → cell m' v c = cell m v c) : m' = m := by
  apply List.ext_getElem (h'.1.trans h.1.symm)
  intro v hv' hv
  have l := h.2 _ (List.getElem_mem hv)
  have l' := h'.2 _ (List.getElem_mem hv')
  apply List.ext_getElem (l'.trans l.symm)
  intro c hc1 hc2
  have := hc v c (h.1 ▸ hv) (l ▸ hc2)
  simpa [cell, List.getElem?_eq_getElem, hv, hv', hc1, hc2] using this

/-- The image of a run: its size, and the number of files it stands for. -/
theorem image_shape {env : Env} {set : Settings} {hankel : ℝ → ℂ} {geom : ℚ → ℚ → ℕ → List ℚ}
    (hg : ∀ a b n, (geom a b n).length = n) (hb : env.transforms = Builtin.transforms hankel geom)
    (hd : ∀ l, (env.detrend l).length = l.length) (hne : set.transform ≠ "empty")
    {f0 : String} {rest : List String} {r : Result} {n : ℕ} {dt delay : ℚ}
    (hrec : ∀ name ∈ f0 :: rest, RecordedAs env n dt delay name)
    (h : frequencyDomain env set (.many (f0 :: rest)) = .ok r) :
    HasShape r.transform.power set.nvel.toNat r.transform.frequencies.length ∧ r.transform.n = rest.length + 1 ∧
      WT.createVector set.vmin set.vmax set.nvel set.vspace = .ok r.transform.velocities := by
  have hax := freq_axis hd n dt delay (hrec f0 List.mem_cons_self) h
  have shape : ∀ name ∈ f0 :: rest, ∀ kw lines level muted T, Spec.PerFile env set kw lines name level muted T →
      HasShape T.power set.nvel.toNat r.transform.frequencies.length ∧ T.n = 1 := by
    intro name hname kw lines level muted T hT
    obtain ⟨⟨o1, o2⟩, o3⟩ := perFile_axis hg hb hd n dt delay (hrec name hname) hT
    rw [hax] at o1
    rw [Except.ok.inj o1]
    exact ⟨o2, o3 hne⟩
  obtain ⟨ex, t0, sf, _, T0, Ts, level, muted, -, h2, -, -, h5, h6, h7, -⟩ := freqFiles_ok h
  have hT : ∀ T ∈ T0 :: Ts, HasShape T.power set.nvel.toNat r.transform.frequencies.length ∧ T.n = 1 := by
    intro T hT
    rcases List.mem_cons.1 hT with rfl | hT
    · exact shape _ List.mem_cons_self _ _ _ _ _ h5
    · obtain ⟨f, hf, l, m, hp⟩ := forall₂_mem_right h6 hT
      exact shape _ (List.mem_cons_of_mem _ hf) _ _ _ _ _ hp
  have hs0 : HasShape t0.power set.nvel.toNat r.transform.frequencies.length := by
    obtain ⟨s, -, -, o⟩ := empty_onAxis h2
    rw [foldlM_frequencies _ _ _ h7]
    exact o
  obtain ⟨-, hvel, h9⟩ := foldlM_stack _ _ _ _ _ hs0 (fun T hT' => (hT T hT').1) h7
  have hv0 : WT.createVector set.vmin set.vmax set.nvel set.vspace = .ok t0.velocities := by
    unfold Workflow.empty at h2
    split at h2
    · cases h2
    · obtain ⟨ids, -, h2⟩ := bind_ok h2
      obtain ⟨vels, hv, h2⟩ := bind_ok h2
      cases h2
      exact hv
  obtain ⟨k1, k2, -⟩ := foldl_stack ℂ set.nvel.toNat r.transform.frequencies.length
    ((T0 :: Ts).map fun T => (⟨T.n, T.power⟩ : WT.Stackable ℂ)) ⟨t0.n, t0.power⟩ hs0 (by
      intro t ht
      obtain ⟨T, hT1, rfl⟩ := List.mem_map.1 ht
      exact ⟨(hT T hT1).1, by rw [show (⟨T.n, T.power⟩ : WT.Stackable ℂ).n = T.n from rfl, (hT T hT1).2]; exact one_pos⟩)
  rw [← h9] at k1 k2
  refine ⟨k2, ?_, hvel ▸ hv0⟩
  have he := congrArg WT.Stackable.n (empty_ok h2)
  have hn : ((T0 :: Ts).map fun T => T.n).sum = (T0 :: Ts).length := by
    have : (T0 :: Ts).map (fun T => T.n) = List.replicate (T0 :: Ts).length 1 := by
      rw [List.eq_replicate_iff]
      refine ⟨by simp, fun b hb => ?_⟩
      obtain ⟨T, hT1, rfl⟩ := List.mem_map.1 hb
      exact (hT T hT1).2
    rw [this]; simp
  simp only [List.map_map] at k1
  have k1' : r.transform.n = t0.n + ((T0 :: Ts).map fun T => T.n).sum := k1
  rw [k1', hn, show t0.n = 0 from he, List.length_cons, ← h6.length_eq, Nat.zero_add]

end Shares

open Shares in
/-- **C186**.  Two frequency-domain runs in which every file has the same share (`k` times its number in the one list is
`m` times its number in the other: lists in another order, or a list given several times over) give the same image, at
the same frequencies.  The files are recorded with one number of samples, time step and delay.  With muting, the lines
are picked on the first file, which must be the same, and the same window must be used for the first file and the further
ones; two runs with the same first file also end with the same lines and the same signal-to-noise ratio. -/
theorem C186_shares (env : Env) (set : Settings) (hankel : ℝ → ℂ) (geom : ℚ → ℚ → ℕ → List ℚ)
    (hg : ∀ a b n, (geom a b n).length = n) (hb : env.transforms = Builtin.transforms hankel geom)
    (hd : ∀ l, (env.detrend l).length = l.length) (hne : set.transform ≠ "empty")
    (f0 g0 : String) (rest rest' : List String) (r r' : Result) (n : ℕ) (dt delay : ℚ)
    (hrec : ∀ name ∈ f0 :: rest, RecordedAs env n dt delay name)
    (k m : ℕ) (hk : 0 < k) (hshare : ∀ name, k * (f0 :: rest).count name = m * (g0 :: rest').count name)
    (hmute : set.muteApply = true → g0 = f0 ∧ set.windowKwargs = none)
    (h : frequencyDomain env set (.many (f0 :: rest)) = .ok r)
    (h' : frequencyDomain env set (.many (g0 :: rest')) = .ok r') :
    r'.transform.frequencies = r.transform.frequencies ∧ r'.transform.velocities = r.transform.velocities ∧
    r'.transform.power = r.transform.power ∧
    (g0 = f0 → r'.final.signalStart = r.final.signalStart ∧ r'.final.signalEnd = r.final.signalEnd ∧ r'.snr = r.snr) := by
  have hm0 : 0 < m := by
    rcases Nat.eq_zero_or_pos m with rfl | hm0
    · have := hshare f0
      rw [List.count_cons_self, Nat.zero_mul] at this
      rcases Nat.mul_eq_zero.1 this with e | e <;> omega
    · exact hm0
  have hrec' : ∀ name ∈ g0 :: rest', RecordedAs env n dt delay name := by
    intro name hname
    apply hrec
    rw [← List.count_pos_iff] at hname ⊢
    have := hshare name
    have h1 : 0 < m * (g0 :: rest').count name := Nat.mul_pos hm0 hname
    rw [← this] at h1
    exact Nat.pos_of_mul_pos_left h1
  have hfr : r'.transform.frequencies = r.transform.frequencies := by
    have h1 := freq_axis hd n dt delay (hrec f0 List.mem_cons_self) h
    have h2 := freq_axis hd n dt delay (hrec' g0 List.mem_cons_self) h'
    rw [h1] at h2
    exact (Except.ok.inj h2).symm
  refine ⟨hfr, ?_, ?_, ?_⟩
  · have e1 := (image_shape hg hb hd hne hrec h).2.2
    have e2 := (image_shape hg hb hd hne hrec' h').2.2
    rw [e1] at e2
    exact (Except.ok.inj e2).symm
  · have sh := (image_shape hg hb hd hne hrec' h').1
    rw [hfr] at sh
    refine power_ext (image_shape hg hb hd hne hrec h).1 sh fun v c hv hc => ?_
    obtain ⟨T0, Ts, level, muted, a1, a2, -, a4⟩ :=
      C78_registered_mean env set hankel geom hg hb hd f0 rest r n dt delay hrec hne h
    obtain ⟨T0', Ts', level', muted', b1, b2, -, b4⟩ :=
      C78_registered_mean env set hankel geom hg hb hd g0 rest' r' n dt delay hrec' hne h'
    set lines := (r.final.signalStart, r.final.signalEnd) with hlines
    have hl : set.muteApply = true → (r'.final.signalStart, r'.final.signalEnd) = lines := by
      intro hm
      obtain ⟨rfl, -⟩ := hmute hm
      exact (first_fixes h h').1
    have p1 : List.Forall₂ (fun f T => ∃ level muted, Spec.PerFile env set none lines f level muted T)
        (f0 :: rest) (T0 :: Ts) :=
      .cons ⟨_, _, a1⟩ (a2.imp fun f T ⟨x, y, hp⟩ => ⟨x, y, perFile_fixed (fun hm => ⟨(hmute hm).2, rfl⟩) hp⟩)
    have p2 : List.Forall₂ (fun f T => ∃ level muted, Spec.PerFile env set none lines f level muted T)
        (g0 :: rest') (T0' :: Ts') :=
      .cons ⟨_, _, perFile_fixed (fun hm => ⟨rfl, hl hm⟩) b1⟩
        (b2.imp fun f T ⟨x, y, hp⟩ => ⟨x, y, perFile_fixed (fun hm => ⟨(hmute hm).2, hl hm⟩) hp⟩)
    rw [a4 v c hv hc, b4 v c hv (by rw [hfr]; exact hc),
      sum_names p1 (value env set lines fun T => (cell T.power v c).getD 0) _ fun _ _ _ _ => value_eq,
      sum_names p2 (value env set lines fun T => (cell T.power v c).getD 0) _ fun _ _ _ _ => value_eq]
    have e1 := sums hshare (value env set lines fun T => (cell T.power v c).getD 0)
    have e2 := lengths hshare
    simp only [List.length_cons, Nat.cast_add, Nat.cast_one] at e2
    have k0 : (k : ℂ) ≠ 0 := by exact_mod_cast hk.ne'
    have m0 : (m : ℂ) ≠ 0 := by exact_mod_cast hm0.ne'
    have l0 : ((rest.length : ℂ) + 1) ≠ 0 := by exact_mod_cast Nat.succ_ne_zero rest.length
    have l0' : ((rest'.length : ℂ) + 1) ≠ 0 := by exact_mod_cast Nat.succ_ne_zero rest'.length
    congr 1
    rw [div_eq_div_iff l0' l0]
    apply mul_left_cancel₀ (mul_ne_zero k0 m0)
    linear_combination (-(k : ℂ)) * ((rest.length : ℂ) + 1) * e1 +
      (k : ℂ) * ((List.map (value env set lines fun T => (cell T.power v c).getD 0) (f0 :: rest)).sum) * e2
  · rintro rfl
    obtain ⟨e1, e2⟩ := first_fixes h h'
    exact ⟨congrArg Prod.fst e1, congrArg Prod.snd e1, e2⟩

namespace Shares

/-- A run over several files returns over the first alone. -/
theorem first_alone {env : Env} {set : Settings} {f0 : String} {rest : List String} {r : Result}
    (h : frequencyDomain env set (.many (f0 :: rest)) = .ok r) :
    ∃ r1, frequencyDomain env set (.many [f0]) = .ok r1 := by
  obtain ⟨ex, t0, tc, s1, T0, t1, sf, s', q, h1, h2, h3, h4, h5, h6, h7, h8⟩ := run_iff.1 h
  obtain ⟨a1, a2, a3, a4⟩ := loop_keeps h4 h6
  obtain ⟨s2', hs2⟩ := snr_windows (s2 := s1) h7 a3.symm a4.symm
  exact ⟨⟨t1, s2'.array, q, s2'⟩,
    run_iff.2 ⟨ex, t0, tc, s1, T0, t1, s1, s2', q, h1, h2, h3, h4, h5, rfl, hs2, rfl⟩⟩

/-- A file that can be transformed gives a run by itself, without muting and without a ratio. -/
theorem file_alone {env : Env} {set : Settings} {hankel : ℝ → ℂ} {geom : ℚ → ℚ → ℕ → List ℚ}
    (hg : ∀ a b n, (geom a b n).length = n) (hb : env.transforms = Builtin.transforms hankel geom)
    (hd : ∀ l, (env.detrend l).length = l.length) (hne : set.transform ≠ "empty") {g : String}
    {level muted : Arr} {T : Transform} (hm : set.muteApply = false) (hs : set.snrPerform = false)
    (h : Spec.PerFile env set none (none, none) g level muted T) :
    ∃ r1, frequencyDomain env set (.many [g]) = .ok r1 := by
  obtain ⟨raw, near, cut, padded, h1, h2, hpre, htr⟩ := h
  obtain ⟨ρ, -, hnil⟩ := OneFile.raw_clock h1
  obtain ⟨r, hr, -⟩ := C76_run_returns env set (.many [g]) raw near level cut muted padded (none, none) T h1 hnil h2
    hpre (fun c => by rw [hm] at c; cases c) htr none (fun _ => rfl) (fun c => by rw [hs] at c; cases c)
  obtain ⟨r', hr', -⟩ := (C182_one_file env set hankel geom hg hb hd hne g).1 r hr
  exact ⟨r', hr'⟩

/-- A run over one file can be continued. -/
theorem continued {env : Env} {set : Settings} {hankel : ℝ → ℂ} {geom : ℚ → ℚ → ℕ → List ℚ}
    (hg : ∀ a b n, (geom a b n).length = n) (hb : env.transforms = Builtin.transforms hankel geom)
    (hd : ∀ l, (env.detrend l).length = l.length) {n : ℕ} {dt delay : ℚ} {g0 : String} {rest : List String} {r1 : Result}
    (h : frequencyDomain env set (.many [g0]) = .ok r1) {raw0 : Arr} (h0 : fromFiles env (.one g0) = .ok raw0)
    (hrec : ∀ name ∈ g0 :: rest, RecordedAs env n dt delay name)
    (hrest : ∀ f ∈ rest, (∃ raw, fromFiles env (.one f) = .ok raw ∧ Spec.Compatible raw raw0) ∧ ∃ level muted T,
      Spec.PerFile env set set.windowKwargs (r1.final.signalStart, r1.final.signalEnd) f level muted T) :
    ∃ r, frequencyDomain env set (.many (g0 :: rest)) = .ok r := by
  have hax := freq_axis hd n dt delay (hrec g0 List.mem_cons_self) h
  obtain ⟨ex, t0, tc, s1, T0, t1, sf, s', q, h1, h2, h3, h4, h5, h6, h7, h8⟩ := run_iff.1 h
  have e6 : sf = s1 ∧ r1.transform = t1 := by
    simp only [freqLoop, Except.ok.injEq, Prod.mk.injEq, Option.some.injEq] at h6
    exact ⟨h6.1.symm, h6.2.symm⟩
  obtain ⟨rfl, e6⟩ := e6
  obtain ⟨c1, c2, level, muted, c3, c4, -⟩ := freqFile_first h4
  obtain ⟨s0, hs0, hax0, hsh0⟩ := empty_onAxis h2
  obtain ⟨raw', hraw', hce⟩ := exampleArray_ok h1
  rw [h0] at hraw'
  cases hraw'
  have hcl := (RecordedAs.allClock (hrec g0 List.mem_cons_self) h0).exampleArray hd h0 h1 s0 hs0
  rw [axisOf_clock hcl, hax] at hax0
  have hfr : r1.transform.frequencies = t0.frequencies := Except.ok.inj hax0
  have shape : ∀ name ∈ g0 :: rest, ∀ kw lines level muted T, Spec.PerFile env set kw lines name level muted T →
      HasShape T.power set.nvel.toNat t0.frequencies.length := by
    intro name hname kw lines level muted T hT
    obtain ⟨o1, o2⟩ := (perFile_axis hg hb hd n dt delay (hrec name hname) hT).1
    rw [hax] at o1
    rw [← hfr, Except.ok.inj o1]
    exact o2
  obtain ⟨t1', k1, k2⟩ := stack_returns hsh0 (shape g0 List.mem_cons_self _ _ _ _ _ c3)
  rw [h5] at k1
  cases k1
  obtain ⟨k0, -, -⟩ := calculateSnr_ok h7
  have hlines : (r1.final.signalStart, r1.final.signalEnd) = (sf.signalStart, sf.signalEnd) := by
    rw [h8]
    show (s'.signalStart, s'.signalEnd) = _
    rw [k0]
  obtain ⟨a0, l1, l2, noise, signal⟩ := sf
  obtain ⟨a', t, hl⟩ := freqLoop_returns (env := env) (set := set) (ex := ex) (lines := (l1, l2)) c2 noise signal
    (by intro hp; obtain ⟨n, s, e1, e2, -⟩ := c4 hp
        simp only at e1 e2
        rw [e1, e2]; exact ⟨rfl, rfl⟩) rest a0 t1 k2 (by
      intro f hf
      obtain ⟨⟨raw, b1, b2⟩, level, muted, T, b3⟩ := hrest f hf
      rw [hlines] at b3
      exact ⟨raw, b1, (OneFile.raw_clock b1).choose_spec.2, ⟨b2.1.trans hce.1.symm, b2.2.trans hce.2.symm⟩,
        level, muted, T, b3, shape f (List.mem_cons_of_mem _ hf) _ _ _ _ _ b3⟩)
  obtain ⟨s2', hs2⟩ := snr_windows (s2 := ⟨a', l1, l2, noise, signal⟩) h7 rfl rfl
  exact ⟨⟨t, s2'.array, q, s2'⟩,
    run_iff.2 ⟨ex, t0, tc, _, T0, t1, _, s2', q, h1, h2, h3, h4, h5, hl, hs2, rfl⟩⟩

end Shares

open Shares in
/-- **C186** (completeness).  If a frequency-domain run returns, so does a run over any other list of its files: in another
order, some of them, or some of them several times.  With muting or a signal-to-noise ratio, which are decided on the
first file, the first file must be the same; with muting, also the window. -/
theorem C186_other_lists_return (env : Env) (set : Settings) (hankel : ℝ → ℂ) (geom : ℚ → ℚ → ℕ → List ℚ)
    (hg : ∀ a b n, (geom a b n).length = n) (hb : env.transforms = Builtin.transforms hankel geom)
    (hd : ∀ l, (env.detrend l).length = l.length) (hne : set.transform ≠ "empty")
    (f0 g0 : String) (rest rest' : List String) (r : Result) (n : ℕ) (dt delay : ℚ)
    (hrec : ∀ name ∈ f0 :: rest, RecordedAs env n dt delay name)
    (hsub : ∀ name ∈ g0 :: rest', name ∈ f0 :: rest)
    (hmute : set.muteApply = true → g0 = f0 ∧ set.windowKwargs = none)
    (hsnr : set.snrPerform = true → g0 = f0)
    (h : frequencyDomain env set (.many (f0 :: rest)) = .ok r) :
    ∃ r', frequencyDomain env set (.many (g0 :: rest')) = .ok r' := by
  obtain ⟨ex, t0, sf, lines, T0, Ts, level, muted, h1, h2, ⟨-, hlines⟩, h4, h5, h6, -⟩ := freqFiles_ok h
  have hper : ∀ f ∈ f0 :: rest, ∃ level muted T, Spec.PerFile env set none lines f level muted T := by
    intro f hf
    rcases List.mem_cons.1 hf with rfl | hf
    · exact ⟨_, _, _, h5⟩
    · obtain ⟨i, hi, rfl⟩ := List.mem_iff_getElem.1 hf
      have hlen := h6.length_eq
      obtain ⟨x, y, hp⟩ := (List.forall₂_iff_get.1 h6).2 i hi (by omega)
      exact ⟨x, y, _, perFile_fixed (fun hm => ⟨(hmute hm).2, rfl⟩) hp⟩
  have halone : ∃ r1, frequencyDomain env set (.many [g0]) = .ok r1 := by
    by_cases hgf : g0 = f0
    · subst hgf
      exact first_alone h
    · obtain ⟨x, y, T, hp⟩ := hper g0 (hsub g0 List.mem_cons_self)
      have m0 : set.muteApply = false := by
        rcases hm : set.muteApply
        · rfl
        · exact absurd (hmute hm).1 hgf
      have s0 : set.snrPerform = false := by
        rcases hm : set.snrPerform
        · rfl
        · exact absurd (hsnr hm) hgf
      exact file_alone hg hb hd hne m0 s0 (perFile_fixed (fun hm => by rw [m0] at hm; cases hm) hp)
  obtain ⟨r1, hr1⟩ := halone
  obtain ⟨raw0, b1, b2⟩ := h4 g0 (hsub g0 List.mem_cons_self)
  refine continued hg hb hd hr1 b1 (fun name hname => hrec name (hsub name hname)) ?_
  intro f hf
  have hf' := hsub f (List.mem_cons_of_mem _ hf)
  obtain ⟨raw, d1, d2⟩ := h4 f hf'
  obtain ⟨x, y, T, hp⟩ := hper f hf'
  refine ⟨⟨raw, d1, d2.1.trans b2.1.symm, d2.2.trans b2.2.symm⟩, x, y, T, perFile_fixed (fun hm => ?_) hp⟩
  obtain ⟨rfl, hw⟩ := hmute hm
  refine ⟨hw.symm, ?_⟩
  rw [hlines]
  exact ((first_fixes h hr1).1).symm

/-- **C186** (the list in another order, or the whole list several times).  What `C186_shares` and
`C186_other_lists_return` say of the two simplest cases, without muting and signal-to-noise ratio: the run over the files in
another order returns, with the same image; so does the run over the list given `m + 1` times. -/
theorem C186_reordered (env : Env) (set : Settings) (hankel : ℝ → ℂ) (geom : ℚ → ℚ → ℕ → List ℚ)
    (hg : ∀ a b n, (geom a b n).length = n) (hb : env.transforms = Builtin.transforms hankel geom)
    (hd : ∀ l, (env.detrend l).length = l.length) (hne : set.transform ≠ "empty")
    (names : List String) (r : Result) (n : ℕ) (dt delay : ℚ)
    (hrec : ∀ name ∈ names, RecordedAs env n dt delay name)
    (hmute : set.muteApply = false) (hsnr : set.snrPerform = false)
    (h : frequencyDomain env set (.many names) = .ok r) (names' : List String)
    (hn : names.Perm names' ∨ ∃ m : ℕ, names' = (List.replicate (m + 1) names).flatten) :
    ∃ r', frequencyDomain env set (.many names') = .ok r' ∧
      r'.transform.frequencies = r.transform.frequencies ∧ r'.transform.velocities = r.transform.velocities ∧
      r'.transform.power = r.transform.power := by
  rcases names with _ | ⟨f0, rest⟩
  · simp [frequencyDomain, freqFiles] at h
  have hcount : ∀ (x : List String) (j : ℕ) a, ((List.replicate j x).flatten).count a = j * x.count a := by
    intro x j a
    induction j with
    | zero => simp
    | succ j ih => rw [List.replicate_succ, List.flatten_cons, List.count_append, ih]; ring
  have hk : ∃ k m : ℕ, 0 < k ∧ 0 < m ∧ ∀ a, k * (f0 :: rest).count a = m * names'.count a := by
    rcases hn with hn | ⟨m, rfl⟩
    · exact ⟨1, 1, one_pos, one_pos, fun a => by rw [hn.count_eq]⟩
    · exact ⟨m + 1, 1, m.succ_pos, one_pos, fun a => by rw [hcount, one_mul]⟩
  obtain ⟨k, m, k0, m0, hs⟩ := hk
  rcases names' with _ | ⟨g0, rest'⟩
  · have := hs f0
    rw [List.count_cons_self, List.count_nil, Nat.mul_zero] at this
    rcases Nat.mul_eq_zero.1 this with e | e <;> omega
  have hsub : ∀ name ∈ g0 :: rest', name ∈ f0 :: rest := by
    intro name hname
    rw [← List.count_pos_iff] at hname ⊢
    have h1 : 0 < m * (g0 :: rest').count name := Nat.mul_pos m0 hname
    rw [← hs name] at h1
    exact Nat.pos_of_mul_pos_left h1
  obtain ⟨r', hr'⟩ := C186_other_lists_return env set hankel geom hg hb hd hne f0 g0 rest rest' r n dt delay hrec hsub
    (fun c => by rw [hmute] at c; cases c) (fun c => by rw [hsnr] at c; cases c) h
  obtain ⟨e1, e2, e3, -⟩ := C186_shares env set hankel geom hg hb hd hne f0 g0 rest rest' r r' n dt delay hrec k m k0 hs
    (fun c => by rw [hmute] at c; cases c) h hr'
  exact ⟨r', hr', e1, e2, e3⟩

/-- The hypotheses of `C186_reordered` are met by two files with the phase-shift transform: the run over `b, a` returns with
the image of the run over `a, b`, and so does the run over `a, b, a, b, a, b`. -/
example : ∃ r r' r'' : Result, frequencyDomain exRegEnv exRegSet (.many ["a", "b"]) = .ok r ∧
    frequencyDomain exRegEnv exRegSet (.many ["b", "a"]) = .ok r' ∧
    frequencyDomain exRegEnv exRegSet (.many ["a", "b", "a", "b", "a", "b"]) = .ok r'' ∧
    r'.transform.frequencies = r.transform.frequencies ∧ r''.transform.frequencies = r.transform.frequencies ∧
    r'.transform.power = r.transform.power ∧ r''.transform.power = r.transform.power := by
  obtain ⟨r, hr⟩ := exReg_run
  have key := C186_reordered exRegEnv exRegSet (fun _ => 1) (fun a _ n => List.replicate n a) (by simp) rfl
    (fun _ => rfl) (by decide) ["a", "b"] r 2 (1 / 1000) 0 exReg_recorded rfl rfl hr
  obtain ⟨r', h1, h2, -, h3⟩ := key ["b", "a"] (.inl (List.Perm.swap _ _ _))
  obtain ⟨r'', k1, k2, -, k3⟩ := key ["a", "b", "a", "b", "a", "b"] (.inr ⟨2, rfl⟩)
  exact ⟨r, r', r'', hr, h1, k1, h2, k2, h3, k3⟩

/-- The hypotheses of `C186_shares` and `C186_other_lists_return` are met with muting by two noisy shots: the runs over
`a, b, b` and over `a, b, b, b, a, b` return, with the same image and the same lines. -/
example : ∃ r r' : Result, noisyShotsSet.muteApply = true ∧
    frequencyDomain noisyShots noisyShotsSet (.many ["a", "b", "b"]) = .ok r ∧
    frequencyDomain noisyShots noisyShotsSet (.many ["a", "b", "b", "b", "a", "b"]) = .ok r' ∧
    r'.transform.frequencies = r.transform.frequencies ∧ r'.final.signalStart = r.final.signalStart ∧
    r'.transform.power = r.transform.power := by
  obtain ⟨r0, hr0, -, -, -, -, hrec, -⟩ := noisy_stack
  have ret := fun rest' (hs : ∀ name ∈ "a" :: rest', name ∈ ["a", "b"]) =>
    C186_other_lists_return noisyShots noisyShotsSet (fun _ => 0) (fun a _ n => List.replicate n a) (by simp) rfl
      (fun _ => rfl) (by decide) "a" "a" ["b"] rest' r0 8 (1 / 1000) 0 hrec hs (fun _ => ⟨rfl, rfl⟩) (fun _ => rfl) hr0
  obtain ⟨r, hr⟩ := ret ["b", "b"] (by simp)
  obtain ⟨r', hr'⟩ := ret ["b", "b", "b", "a", "b"] (by simp)
  obtain ⟨e1, -, e2, e3⟩ := C186_shares noisyShots noisyShotsSet (fun _ => 0) (fun a _ n => List.replicate n a) (by simp) rfl
    (fun _ => rfl) (by decide) "a" "a" ["b", "b"] ["b", "b", "b", "a", "b"] r r' 8 (1 / 1000) 0
    (fun name hname => hrec name (by simpa using hname)) 2 1 (by decide) (by
      intro name
      simp only [List.count_cons, List.count_nil]
      split_ifs <;> rfl) (fun _ => ⟨rfl, rfl⟩) hr hr'
  exact ⟨r, r', rfl, hr, hr', e1, (e3 rfl).1, e2⟩

end Verif.Props
