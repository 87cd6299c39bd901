import Verif.Props.FreqShares

/-!
# C187: a frequency-domain stack can be made in parts
-/

namespace Verif.Props
open Verif Workflow

namespace Parts
open Shares

/-- Without muting the image of a run is the mean over the names of its files. -/
theorem mean_names {env : Env} {set : Settings} {hankel : ℝ → ℂ} {geom : ℚ → ℚ → ℕ → List ℚ}
    (hg : ∀ a b n, (geom a b n).length = n) (hb : env.transforms = Builtin.transforms hankel geom)
    (hd : ∀ l, (env.detrend l).length = l.length) (hne : set.transform ≠ "empty") (hmute : set.muteApply = false)
    {names : List String} {r : Result} {n : ℕ} {dt delay : ℚ} (hrec : ∀ name ∈ names, RecordedAs env n dt delay name)
    (h : frequencyDomain env set (.many names) = .ok r) :
    names ≠ [] ∧ HasShape r.transform.power set.nvel.toNat r.transform.frequencies.length ∧
    r.transform.n = names.length ∧
    axisOf (afterSteps set ⟨List.replicate n 0, dt, 1, delay, 1⟩) set = .ok r.transform.frequencies ∧
    WT.createVector set.vmin set.vmax set.nvel set.vspace = .ok r.transform.velocities ∧
    ∀ v c, v < set.nvel.toNat → c < r.transform.frequencies.length → ∃ y, cell r.transform.power v c = some y ∧
      y * (names.length : ℂ) = (names.map (value env set (none, none) fun T => (cell T.power v c).getD 0)).sum := by
  rcases names with _ | ⟨f0, rest⟩
  · simp [frequencyDomain, freqFiles] at h
  obtain ⟨h1, h2, h3⟩ := image_shape hg hb hd hne hrec h
  refine ⟨by simp, h1, h2, freq_axis hd n dt delay (hrec f0 List.mem_cons_self) h, h3, fun v c hv hc => ?_⟩
  obtain ⟨T0, Ts, level, muted, a1, a2, -, a4⟩ :=
    C78_registered_mean env set hankel geom hg hb hd f0 rest r n dt delay hrec hne h
  have no : set.muteApply = true → False := fun hm => by rw [hmute] at hm; cases hm
  have p1 : List.Forall₂ (fun f T => ∃ level muted, Spec.PerFile env set none (none, none) f level muted T)
      (f0 :: rest) (T0 :: Ts) :=
    .cons ⟨_, _, perFile_fixed (fun hm => (no hm).elim) a1⟩
      (a2.imp fun f T ⟨x, y, hp⟩ => ⟨x, y, perFile_fixed (fun hm => (no hm).elim) hp⟩)
  refine ⟨_, a4 v c hv hc, ?_⟩
  rw [sum_names p1 (value env set (none, none) fun T => (cell T.power v c).getD 0) _ fun _ _ _ _ => value_eq]
  have l0 : ((rest.length : ℂ) + 1) ≠ 0 := by exact_mod_cast Nat.succ_ne_zero rest.length
  simp only [List.length_cons, Nat.cast_add, Nat.cast_one]
  exact div_mul_cancel₀ _ l0

theorem stackAll_returns {nvel nfrq : ℕ} : ∀ (Ts : List Transform) (t : Transform), HasShape t.power nvel nfrq →
    (∀ T ∈ Ts, HasShape T.power nvel nfrq) → ∃ t', Ts.foldlM Workflow.stack t = .ok t' := by
  intro Ts
  induction Ts with
  | nil => intro t _ _; exact ⟨t, rfl⟩
  | cons T Ts ih =>
    intro t ht hT
    obtain ⟨t1, h1, h2⟩ := stack_returns ht (hT T List.mem_cons_self)
    obtain ⟨t', h3⟩ := ih t1 h2 fun T' h' => hT T' (List.mem_cons_of_mem _ h')
    refine ⟨t', ?_⟩
    rw [List.foldlM_cons, h1]
    exact h3

theorem forall₂_of_exists {α β : Type} {R : α → β → Prop} : ∀ {l : List α}, (∀ a ∈ l, ∃ b, R a b) →
    ∃ m : List β, List.Forall₂ R l m
  | [], _ => ⟨[], .nil⟩
  | a :: l, h => by
    obtain ⟨b, hb⟩ := h a List.mem_cons_self
    obtain ⟨m, hm⟩ := forall₂_of_exists fun x hx => h x (List.mem_cons_of_mem _ hx)
    exact ⟨b :: m, .cons hb hm⟩

/-- Sums over the parts are sums over the whole. -/
theorem sum_parts {R : List String → Result → Prop} (g : String → ℂ) (y : Result → ℂ) {ps : List (List String)}
    {rs : List Result} (h : List.Forall₂ R ps rs)
    (hy : ∀ p x, R p x → (x.transform.n : ℂ) * y x = (p.map g).sum) :
    (rs.map fun x => (x.transform.n : ℂ) * y x).sum = (ps.flatten.map g).sum := by
  induction h with
  | nil => rfl
  | cons h _ ih => simp only [List.map_cons, List.sum_cons, List.flatten_cons, List.map_append, List.sum_append, ih, hy _ _ h]

theorem count_parts {R : List String → Result → Prop} {ps : List (List String)} {rs : List Result}
    (h : List.Forall₂ R ps rs) (hn : ∀ p x, R p x → x.transform.n = p.length) :
    (rs.map fun x => x.transform.n).sum = ps.flatten.length := by
  induction h with
  | nil => rfl
  | cons h _ ih => simp only [List.map_cons, List.sum_cons, List.flatten_cons, List.length_append, ih, hn _ _ h]

end Parts

open Shares Parts in
/-- **C187**.  A frequency-domain stack can be made in parts.  If a run over some files returns, so does the run over each
part of the list, however it is cut; and stacking the images of the parts with one another (with `stack`, in their order)
gives the image of the whole run: the same frequencies, trial velocities and power, and the same number of files behind
it.  The files are recorded alike; there is no muting and no signal-to-noise ratio (both are decided on the first file
of a run, and each part has its own). -/
theorem C187_in_parts (env : Env) (set : Settings) (hankel : ℝ → ℂ) (geom : ℚ → ℚ → ℕ → List ℚ)
    (hg : ∀ a b n, (geom a b n).length = n) (hb : env.transforms = Builtin.transforms hankel geom)
    (hd : ∀ l, (env.detrend l).length = l.length) (hne : set.transform ≠ "empty")
    (hmute : set.muteApply = false) (hsnr : set.snrPerform = false)
    (part : List String) (parts : List (List String)) (hparts : ∀ p ∈ part :: parts, p ≠ [])
    (r : Result) (n : ℕ) (dt delay : ℚ)
    (hrec : ∀ p ∈ part :: parts, ∀ name ∈ p, RecordedAs env n dt delay name)
    (h : frequencyDomain env set (.many (part :: parts).flatten) = .ok r) :
    ∃ (r0 : Result) (rs : List Result) (t : Transform), frequencyDomain env set (.many part) = .ok r0 ∧
      List.Forall₂ (fun p x => frequencyDomain env set (.many p) = .ok x) parts rs ∧
      (rs.map fun x => x.transform).foldlM Workflow.stack r0.transform = .ok t ∧
      t.frequencies = r.transform.frequencies ∧ t.velocities = r.transform.velocities ∧
      t.power = r.transform.power ∧ t.n = r.transform.n := by
  have no : ∀ {P : Prop} (b : Bool), b = false → b = true → P := by
    intro P b h1 h2; rw [h1] at h2; cases h2
  have hrec' : ∀ name ∈ (part :: parts).flatten, RecordedAs env n dt delay name := by
    intro name hname
    obtain ⟨p, hp, hn⟩ := List.mem_flatten.1 hname
    exact hrec p hp name hn
  have ret : ∀ p ∈ part :: parts, ∃ x, frequencyDomain env set (.many p) = .ok x ∧
      ∀ name ∈ p, RecordedAs env n dt delay name := by
    intro p hp
    obtain ⟨g0, rest', rfl⟩ := List.exists_cons_of_ne_nil (hparts p hp)
    rcases hw : (part :: parts).flatten with _ | ⟨f0, rest⟩
    · rw [hw] at h; simp [frequencyDomain, freqFiles] at h
    rw [hw] at h hrec'
    obtain ⟨x, hx⟩ := C186_other_lists_return env set hankel geom hg hb hd hne f0 g0 rest rest' r n dt delay hrec'
      (fun name hname => by rw [← hw]; exact List.mem_flatten.2 ⟨_, hp, hname⟩) (no _ hmute) (no _ hsnr) h
    exact ⟨x, hx, hrec _ hp⟩
  obtain ⟨-, w1, w2, w3, w4, w5⟩ := mean_names hg hb hd hne hmute hrec' h
  obtain ⟨r0, hr0, hrec0⟩ := ret part List.mem_cons_self
  obtain ⟨rs, hrs⟩ := forall₂_of_exists fun p hp => ret p (List.mem_cons_of_mem _ hp)
  -- what every part has
  have facts : ∀ p x, (frequencyDomain env set (.many p) = .ok x ∧ ∀ name ∈ p, RecordedAs env n dt delay name) →
      x.transform.frequencies = r.transform.frequencies ∧ x.transform.velocities = r.transform.velocities ∧
      HasShape x.transform.power set.nvel.toNat r.transform.frequencies.length ∧ x.transform.n = p.length ∧ p ≠ [] ∧
      ∀ v c, v < set.nvel.toNat → c < r.transform.frequencies.length → ∃ y, cell x.transform.power v c = some y ∧
        y * (p.length : ℂ) = (p.map (value env set (none, none) fun T => (cell T.power v c).getD 0)).sum := by
    rintro p x ⟨hx, hp⟩
    obtain ⟨u0, u1, u2, u3, u4, u5⟩ := mean_names hg hb hd hne hmute hp hx
    rw [w3] at u3
    rw [w4] at u4
    have e3 := Except.ok.inj u3
    rw [← e3] at u1 u5
    exact ⟨e3.symm, (Except.ok.inj u4).symm, u1, u2, u0, u5⟩
  have hall : List.Forall₂ (fun p x => frequencyDomain env set (.many p) = .ok x ∧
      ∀ name ∈ p, RecordedAs env n dt delay name) (part :: parts) (r0 :: rs) := .cons ⟨hr0, hrec0⟩ hrs
  obtain ⟨z1, z2, z3, z4, z5, z6⟩ := facts part r0 ⟨hr0, hrec0⟩
  have shapes : ∀ T ∈ rs.map fun x => x.transform,
      HasShape T.power set.nvel.toNat r.transform.frequencies.length ∧ 0 < T.n := by
    intro T hT
    obtain ⟨x, hx, rfl⟩ := List.mem_map.1 hT
    obtain ⟨p, -, hp⟩ := forall₂_mem_right hrs hx
    obtain ⟨-, -, e1, e2, e3, -⟩ := facts p x hp
    exact ⟨e1, by rw [e2]; exact List.length_pos_iff.2 e3⟩
  obtain ⟨t, ht⟩ := stackAll_returns _ r0.transform z3 fun T hT => (shapes T hT).1
  obtain ⟨t1, t2, t3⟩ := foldlM_stack _ _ _ _ _ z3 (fun T hT => (shapes T hT).1) ht
  obtain ⟨k1, k2, k3⟩ := foldl_stack ℂ set.nvel.toNat r.transform.frequencies.length
    ((rs.map fun x => x.transform).map fun T => (⟨T.n, T.power⟩ : WT.Stackable ℂ)) ⟨r0.transform.n, r0.transform.power⟩ z3
    (by
      intro o ho
      obtain ⟨T, hT, rfl⟩ := List.mem_map.1 ho
      exact shapes T hT)
  rw [← t3] at k1 k2 k3
  have htn : t.n = r.transform.n := by
    have hc := count_parts hall fun p x hp => (facts p x hp).2.2.2.1
    rw [w2, ← hc]
    simp only [List.map_map] at k1
    exact k1
  refine ⟨r0, rs, t, hr0, hrs.imp fun _ _ hp => hp.1, ht, t1.trans z1, t2.trans z2, ?_, htn⟩
  refine power_ext w1 k2 fun v c hv hc => ?_
  obtain ⟨y, hy1, hy2⟩ := w5 v c hv hc
  obtain ⟨x0, y', e1, e2, e3⟩ := k3 v c hv hc
  have hsum := sum_parts (value env set (none, none) fun T => (cell T.power v c).getD 0)
    (fun x => (cell x.transform.power v c).getD 0) hall (by
      intro p x hp
      obtain ⟨-, -, -, f1, -, f2⟩ := facts p x hp
      obtain ⟨y, hy, hs⟩ := f2 v c hv hc
      rw [hy, Option.getD_some, f1, mul_comm, hs])
  show cell t.power v c = _
  rw [hy1, show cell t.power v c = some y' from e2]
  congr 1
  have hn0 : (t.n : ℂ) ≠ 0 := by
    rw [htn, w2]
    have : (part :: parts).flatten ≠ [] := by
      simp [z5]
    exact_mod_cast (List.length_pos_iff.2 this).ne'
  apply mul_right_cancel₀ hn0
  have e3' : y' * (t.n : ℂ) = x0 * (r0.transform.n : ℂ) +
      ((rs.map fun x => (x.transform.n : ℂ) * (cell x.transform.power v c).getD 0).sum) := by
    rw [List.map_map, List.map_map] at e3
    exact e3
  rw [e3', htn, w2, hy2, ← hsum, List.map_cons, List.sum_cons]
  rw [show cell r0.transform.power v c = some x0 from e1, Option.getD_some, mul_comm]

/-- The hypotheses of `C187_in_parts` are met by two files cut in two parts: the stack of the image of `b` onto that of `a` is
the image of the run over both. -/
example : ∃ (ra rb r : Result) (t : Transform), frequencyDomain exRegEnv exRegSet (.many ["a"]) = .ok ra ∧
    frequencyDomain exRegEnv exRegSet (.many ["b"]) = .ok rb ∧
    frequencyDomain exRegEnv exRegSet (.many ["a", "b"]) = .ok r ∧
    Workflow.stack ra.transform rb.transform = .ok t ∧ t.power = r.transform.power ∧ t.n = r.transform.n := by
  obtain ⟨r, hr⟩ := exReg_run
  obtain ⟨r0, rs, t, h1, h2, h3, -, -, h6, h7⟩ := C187_in_parts exRegEnv exRegSet (fun _ => 1)
    (fun a _ n => List.replicate n a) (by simp) rfl (fun _ => rfl) (by decide) rfl rfl ["a"] [["b"]] (by simp) r 2
    (1 / 1000) 0 (by
      intro p hp name hname
      apply exReg_recorded
      simp only [List.mem_cons, List.not_mem_nil, or_false] at hp
      rcases hp with rfl | rfl <;> simp_all) hr
  rcases h2 with _ | ⟨hb, ⟨⟩⟩
  rename_i rb
  simp only [List.map_cons, List.map_nil, List.foldlM_cons, List.foldlM_nil] at h3
  obtain ⟨t', h4, h5⟩ := bind_ok h3
  cases h5
  exact ⟨r0, rb, r, t, h1, hb, hr, h4, h6, h7⟩

end Verif.Props
