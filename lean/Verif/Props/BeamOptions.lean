import Verif.Props.Power
import Verif.Props.Settings

/-!
# C191: the user's beamforming options are honoured
-/

open Complex

namespace Verif.Props
open Verif Spec Workflow

namespace BeamOptions

/-- No key twice, as in every Python dictionary. -/
def UniqueKeys (d : Kwargs) : Prop := (d.map Prod.fst).Nodup

theorem lookup_strings (key : String) : ∀ d : Kwargs, UniqueKeys d →
    (d.filterMap fun p => match p.2 with | .str s => some (p.1, s) | _ => none).lookup key =
      match d.lookup key with
      | some (.str s) => some s
      | _ => none
  | [], _ => rfl
  | (k, v) :: d, h => by
    have h' : UniqueKeys d := (List.nodup_cons.1 h).2
    have hk : k ∉ d.map Prod.fst := (List.nodup_cons.1 h).1
    have ih := lookup_strings key d h'
    by_cases e : key = k
    · subst e
      have hd : d.lookup key = none := by
        rw [List.lookup_eq_none_iff]
        intro p hp
        simp only [beq_eq_false_iff_ne, bne_iff_ne, ne_eq]
        intro he
        exact hk (List.mem_map.2 ⟨p, hp, he.symm⟩)
      rcases v with s | x | n | b | d'
      · simp [List.lookup]
      all_goals
        simp only [List.filterMap_cons, List.lookup, beq_self_eq_true]
        rw [ih, hd]
    · have e' : (key == k) = false := by simpa using e
      rcases v with s | x | n | b | d' <;> simp [List.lookup, e', ih]

theorem get_place (v : Val) (key : String) :
    v.get? ["processing", "fdbf-specific", key] =
      (v.get? ["processing", "fdbf-specific"]).bind fun u => u.get? [key] := by
  rcases v with s | x | n | b | d
  · rfl
  · rfl
  · rfl
  · rfl
  simp only [Val.get?]
  rcases d.lookup "processing" with _ | u
  · rfl
  rcases u with s | x | n | b | d
  · rfl
  · rfl
  · rfl
  · rfl
  simp only [Val.get?]
  rcases d.lookup "fdbf-specific" with _ | u
  · rfl
  rfl

theorem fdbf_place {v : Val} {set : Settings} (h : Settings.ofDict v = some set) :
    set.fdbf = v.dict? ["processing", "fdbf-specific"] := by
  unfold Settings.ofDict at h
  iterate 23 (obtain ⟨_, -, h⟩ := Option.bind_eq_some_iff.1 h)
  cases h
  rfl

/-- What the transform compares is the text at the documented place. -/
theorem option_used {v : Val} {set : Settings} (h : Settings.ofDict v = some set)
    (hu : ∀ d, v.dict? ["processing", "fdbf-specific"] = some d → UniqueKeys d) (key : String) :
    (Builtin.specific set.fdbf).get key = v.str? ["processing", "fdbf-specific", key] := by
  rw [fdbf_place h]
  unfold Val.str?
  rw [get_place]
  unfold Val.dict? at hu ⊢
  revert hu
  rcases v.get? ["processing", "fdbf-specific"] with _ | u <;> intro hu
  · rfl
  rcases u with s | x | n | b | d
  · rfl
  · rfl
  · rfl
  · rfl
  simp only [Builtin.specific, Option.map_some, WT.FdbfSpecific.get, Option.bind_some, Val.get?]
  refine (lookup_strings key d (hu d rfl)).trans ?_
  rcases d.lookup key with _ | w <;> rfl

end BeamOptions

open BeamOptions

/-- **C191**.  Whatever else the settings say: beamforming weighs the receivers as the text at
`processing`/`fdbf-specific`/`weighting` says and advances them as the one at `steering` says; without such a
text the weights are one and the wavefront is plane. -/
theorem C191_honoured (hankel : ℝ → ℂ) (v : Val) (set : Settings) (hs : Settings.ofDict v = some set)
    (hu : ∀ d, v.dict? ["processing", "fdbf-specific"] = some d → UniqueKeys d) (a : Arr) (t : Transform)
    (ht : Builtin.fdbf hankel a set = .ok t) (hc : Consistent a) (hdt : ∀ s ∈ a.sensors, 0 < s.ts.dt)
    (i j : ℕ) (vel : ℝ) (f : ℚ) (hi : t.velocities[i]? = some vel) (hj : t.frequencies[j]? = some f)
    (h0 : ∀ s ∈ a.sensors, spectrumAt f s ≠ 0) :
    (t.power[i]?.bind fun row => row[j]?) = some ((beamformingPower a
      (weightOf a.source (v.str? ["processing", "fdbf-specific", "weighting"]) f)
      (lagOf hankel (v.str? ["processing", "fdbf-specific", "steering"])) f vel : ℝ) : ℂ) := by
  have h := (C117_beamforming hankel a set t ht hc hdt).2.2 i j vel f hi hj fun _ => h0
  rw [option_used hs hu, option_used hs hu] at h
  exact h

/-- **C191** (`create_settings_dict`).  The arguments `weighting` and `steering` of `create_settings_dict` are
the ones used. -/
theorem C191_arguments (hankel : ℝ → ℂ) (args : SettingsArgs) (set : Settings)
    (hs : Settings.ofDict (createSettingsDict args) = some set) (a : Arr) (t : Transform)
    (ht : Builtin.fdbf hankel a set = .ok t) (hc : Consistent a) (hdt : ∀ s ∈ a.sensors, 0 < s.ts.dt)
    (i j : ℕ) (vel : ℝ) (f : ℚ) (hi : t.velocities[i]? = some vel) (hj : t.frequencies[j]? = some f)
    (h0 : ∀ s ∈ a.sensors, spectrumAt f s ≠ 0) :
    (t.power[i]?.bind fun row => row[j]?) = some ((beamformingPower a
      (weightOf a.source (some args.weighting) f) (lagOf hankel (some args.steering)) f vel : ℝ) : ℂ) := by
  refine C191_honoured hankel _ set hs ?_ a t ht hc hdt i j vel f hi hj h0
  intro d hd
  have : d = [("weighting", .str args.weighting), ("steering", .str args.steering)] := by
    have e : (createSettingsDict args).dict? ["processing", "fdbf-specific"] =
      some [("weighting", .str args.weighting), ("steering", .str args.steering)] := rfl
    rw [e] at hd
    exact (Option.some.inj hd).symm
  subst this
  unfold UniqueKeys
  simp

/-- Arguments of `create_settings_dict` for the recording of `C117`, with square root weighting. -/
def pulseArgs : SettingsArgs :=
  { transform := "fdbf", fmin := 60, fmax := 130, vmin := 2000, vmax := 4000, nvel := 2, vspace := "linear",
    weighting := "sqrt", steering := "plane" }

/-- Beamforming with them gives an image of two velocities and two frequencies; that the recording meets the
other conditions is shown at `C117`. -/
example : ∃ set t, Settings.ofDict (createSettingsDict pulseArgs) = some set ∧
    Builtin.fdbf (fun _ => 0) pulsePadded set = .ok t ∧ t.frequencies = [125 / 2, 125] ∧
    t.velocities = [2000, 4000] := by
  have hv := pulse_velocities "fdbf"
  have hf : ([1, 2] : List ℕ).map (fun k => (WT.binFrequencies 16 (125 / 2 : ℚ)).getD k 0) = [125 / 2, 125] := by
    decide +kernel
  have hn : pyInt 2 = 2 := by decide +kernel
  have hv' : ∀ set : Settings, set.vmin = 2000 → set.vmax = 4000 → set.nvel = 2 → set.vspace = "linear" →
      Builtin.velocities set = .ok [2000, 4000] := by
    intro set h1 h2 h3 h4
    rw [← hv]
    unfold Builtin.velocities
    rw [h1, h2, h3, h4]
    rfl
  suffices h : ∀ set, Settings.ofDict (createSettingsDict pulseArgs) = some set →
      ∃ t, Builtin.fdbf (fun _ => 0) pulsePadded set = .ok t ∧ t.frequencies = [125 / 2, 125] ∧
        t.velocities = [2000, 4000] by
    obtain ⟨t, ht⟩ := h _ (ofDict_createSettingsDict pulseArgs)
    exact ⟨_, t, ofDict_createSettingsDict pulseArgs, ht⟩
  intro set hset
  rw [ofDict_createSettingsDict] at hset
  cases hset
  unfold Builtin.fdbf
  rw [hv' _ rfl rfl hn rfl, pulse_record]
  simp only [bind, Except.bind, pulseArgs, WT.fdbf]
  rw [pulse_keepIds]
  exact ⟨_, rfl, hf, rfl⟩

end Verif.Props
