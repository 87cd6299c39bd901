import Verif.Model.Files
import Verif.Lemmas.Files
import Verif.Lemmas.Sensor
import Verif.Spec.SourceStated
import Verif.Props.XCorrelate

/-!
# C190: the position of the source is never guessed
-/

namespace Verif.Props
open Verif Spec

namespace SourceStated

theorem headerInt_ok {h : Header} {name : String} {n : ℤ} : Arr.headerInt h name = .ok n ↔ HasInt h name n := by
  unfold Arr.headerInt HasInt
  rcases h.lookup name with _ | v
  · simp
  simp only []
  rcases hv : v.toInt with _ | m
  · simp [hv]
  · simp [hv]

theorem headerInt_missing {h : Header} {name : String} (hn : h.lookup name = none) :
    Arr.headerInt h name = .error .keyError := by
  unfold Arr.headerInt
  rw [hn]

theorem checkUnits_ok {h : Header} : Arr.checkUnits h = .ok () ↔
    (h.lookup "coordinate_units" = some (.int 0) ∨ h.lookup "coordinate_units" = some (.int 1)) := by
  unfold Arr.checkUnits
  split
  · rename_i e; simp [e]
  · rename_i e; simp [e]
  · rename_i e; simp [e]
  · rename_i v h0 h1 e
    simp only [e, Option.some.injEq, reduceCtorEq, false_iff, not_or]
    exact ⟨h0, h1⟩

theorem header_ok {z : Bool} {h : Header} {mapX mapY : ℚ → ℚ} {s : Source} :
    Arr.sourceFromHeader z h mapX mapY = .ok s ↔ ∃ scalar x y, StatesSource h scalar x y ∧
      (z = true ∨ scalar ≠ 0) ∧
      s = ⟨mapX (Sensor.scaleCoordinate (if scalar = 0 then 1 else scalar) x x),
        mapY (Sensor.scaleCoordinate (if scalar = 0 then 1 else scalar) y y), 0⟩ := by
  constructor
  · intro g
    unfold Arr.sourceFromHeader at g
    rcases hu : Arr.checkUnits h with e | ⟨⟩
    · rw [hu] at g; cases g
    rcases hc : Arr.headerInt h "scalar_to_be_applied_to_all_coordinates" with e | c
    · rw [hu, hc] at g; cases g
    rcases hx : Arr.headerInt h "source_coordinate_x" with e | x
    · rw [hu, hc, hx] at g; cases g
    rcases hy : Arr.headerInt h "source_coordinate_y" with e | y
    · simp only [hu, hc, hx, hy, bind, Except.bind] at g
      split_ifs at g <;> cases g
    refine ⟨c, x, y, ⟨checkUnits_ok.1 hu, headerInt_ok.1 hc, headerInt_ok.1 hx, headerInt_ok.1 hy⟩, ?_⟩
    simp only [hu, hc, hx, hy, bind, Except.bind, pure, Except.pure] at g
    by_cases h0 : c = 0
    · cases z
      · simp [h0] at g
      · simp only [h0, decide_true, Bool.and_self, if_true, one_ne_zero, if_false, Except.ok.injEq] at g
        exact ⟨.inl rfl, by rw [if_pos h0]; exact g.symm⟩
    · simp only [h0, decide_false, Bool.and_false, Bool.false_eq_true, if_false, Except.ok.injEq] at g
      exact ⟨.inr h0, by rw [if_neg h0]; exact g.symm⟩
  · rintro ⟨c, x, y, ⟨hu, hc, hx, hy⟩, hz, rfl⟩
    unfold Arr.sourceFromHeader
    rw [checkUnits_ok.2 hu, headerInt_ok.2 hc, headerInt_ok.2 hx, headerInt_ok.2 hy]
    by_cases h0 : c = 0
    · have hz : z = true := hz.resolve_right (fun h => h h0)
      simp [h0, hz, bind, Except.bind, pure, Except.pure]
    · simp [h0, bind, Except.bind, pure, Except.pure]

theorem scale_allowed {c n : ℤ} (hc : AllowedScalar c) :
    Sensor.scaleCoordinate (if c = 0 then 1 else c) n n = segyCoordinate c n := by
  rcases hc with rfl | ⟨k, rfl | rfl⟩
  · simp [Sensor.scaleCoordinate_one, segyCoordinate]
  · rw [if_neg (by positivity), Sensor.scaleCoordinate_pos]
  · have : (10 ^ k : ℤ) ≠ 0 := by positivity
    rw [if_neg (by omega), Sensor.scaleCoordinate_neg]

theorem parse_stated {format : String} {mapX mapY : ℚ → ℚ} {t : Trace} {s : Source}
    (g : Arr.parseSource format mapX mapY t = .ok s) : SourceAt format mapX mapY t s := by
  unfold Arr.parseSource at g
  split_ifs at g with c1 c2 c3
  · rcases h1 : t.seg2 with _ | hd
    · simp [h1] at g
    rcases h2 : hd.lookup "SOURCE_LOCATION" with _ | v
    · simp [h1, h2] at g
    rcases h3 : v.toFloat with _ | x
    · simp [h1, h2, h3] at g
    simp only [h1, h2, h3, Except.ok.injEq] at g
    exact .inl ⟨c1, hd, v, x, h1, h2, h3, g.symm⟩
  · rcases h1 : t.su with _ | hd
    · simp [h1] at g
    simp only [h1] at g
    obtain ⟨c, x, y, hs, -, rfl⟩ := header_ok.1 g
    exact .inr ⟨hd, c, x, y, .inl ⟨c2, h1⟩, hs, fun ha => by rw [scale_allowed ha, scale_allowed ha]⟩
  · rcases h1 : t.segy with _ | hd
    · simp [h1] at g
    simp only [h1] at g
    obtain ⟨c, x, y, hs, hz, rfl⟩ := header_ok.1 g
    exact .inr ⟨hd, c, x, y, .inr ⟨c3, h1, hz.resolve_left (by simp)⟩, hs,
      fun ha => by rw [scale_allowed ha, scale_allowed ha]⟩

theorem files_stated (fs : Fs) (format : String) (mapX mapY : ℚ → ℚ) (src : Source) :
    ∀ (fnames : List String) (ss ss' : List Sensor),
    Arr.stackFiles fs format mapX mapY src ss fnames = .ok ss' →
    ∀ f ∈ fnames, ∃ t ts, fs f = some (t :: ts) ∧ Arr.parseSource format mapX mapY t = .ok src := by
  intro fnames
  induction fnames with
  | nil => intro _ _ _ f hf; cases hf
  | cons f rest ih =>
    intro ss ss' h
    simp only [Arr.stackFiles, Arr.readFile] at h
    rcases hf : fs f with _ | ts
    · simp [hf] at h
    rcases ts with _ | ⟨t, ts⟩
    · simp [hf] at h
    simp only [hf] at h
    rcases hp : Arr.parseSource format mapX mapY t with e | ns
    · simp [hp] at h
    simp only [hp] at h
    split_ifs at h with he
    rcases hk : Arr.stackTraces ss (t :: ts) with e | ss1
    · simp [hk] at h
    simp only [hk] at h
    have hns : ns = src := by
      simp only [Bool.not_eq_true, Bool.not_eq_false', Source.eq, Bool.and_eq_true, decide_eq_true_eq] at he
      obtain ⟨⟨h1, h2⟩, h3⟩ := he
      cases ns; cases src; simp_all
    intro g hg
    rcases List.mem_cons.1 hg with rfl | hg
    · exact ⟨t, ts, hf, by rw [hp, hns]⟩
    · exact ih _ _ h g hg

end SourceStated

open SourceStated

/-- **C190**.  The array that `from_files` returns has the source that the last trace of the first file states,
and the first trace of every further file, read in the format of the first file, states the same. -/
theorem C190_stated (fs : Fs) (f0 : String) (rest : List String) (mapX mapY : ℚ → ℚ) (a : Arr)
    (h : Arr.fromFiles fs (f0 :: rest) mapX mapY = .ok a) :
    ∃ traces t format, fs f0 = some traces ∧ traces.getLast? = some t ∧ t.format = some format ∧
      SourceAt format mapX mapY t a.source ∧
      ∀ f ∈ rest, ∃ u us, fs f = some (u :: us) ∧ SourceAt format mapX mapY u a.source := by
  obtain ⟨traces, sensors, t, format, obj, g1, -, g3, g4, g5, -, g7⟩ := Arr.fromFiles_ok h
  refine ⟨traces, t, format, g1, g3, g4, parse_stated g5, fun f hf => ?_⟩
  obtain ⟨u, us, e1, e2⟩ := files_stated _ _ _ _ _ _ _ _ g7 f hf
  exact ⟨u, us, e1, parse_stated e2⟩

/-- **C190** (missing fields).  An SU or SEGY header with units that are lengths, in which the scalar or a
coordinate of the source is missing and what is there can be read, is refused with `KeyError`; so is one
without units.  A SEGY scalar of zero is refused before the second coordinate is looked at. -/
theorem C190_missing (z : Bool) (h : Header) (mapX mapY : ℚ → ℚ) :
    (h.lookup "coordinate_units" = none → Arr.sourceFromHeader z h mapX mapY = .error .keyError) ∧
    ((h.lookup "coordinate_units" = some (.int 0) ∨ h.lookup "coordinate_units" = some (.int 1)) →
      (h.lookup "scalar_to_be_applied_to_all_coordinates" = none →
        Arr.sourceFromHeader z h mapX mapY = .error .keyError) ∧
      ∀ c, HasInt h "scalar_to_be_applied_to_all_coordinates" c →
        (h.lookup "source_coordinate_x" = none → Arr.sourceFromHeader z h mapX mapY = .error .keyError) ∧
        ∀ x, HasInt h "source_coordinate_x" x → (z = true ∨ c ≠ 0) → h.lookup "source_coordinate_y" = none →
          Arr.sourceFromHeader z h mapX mapY = .error .keyError) := by
  refine ⟨fun hu => ?_, fun hu => ⟨fun hc => ?_, fun c hc => ⟨fun hx => ?_, fun x hx hz hy => ?_⟩⟩⟩
  · simp [Arr.sourceFromHeader, Arr.checkUnits, hu, bind, Except.bind]
  · unfold Arr.sourceFromHeader
    rw [checkUnits_ok.2 hu, headerInt_missing hc]
    rfl
  · unfold Arr.sourceFromHeader
    rw [checkUnits_ok.2 hu, headerInt_ok.2 hc, headerInt_missing hx]
    rfl
  · unfold Arr.sourceFromHeader
    rw [checkUnits_ok.2 hu, headerInt_ok.2 hc, headerInt_ok.2 hx, headerInt_missing hy]
    by_cases h0 : c = 0
    · have hz : z = true := hz.resolve_right (fun h => h h0)
      simp [h0, hz, bind, Except.bind, pure, Except.pure]
    · simp [h0, bind, Except.bind, pure, Except.pure]

/-- **C190** (stated sources are taken).  Conversely, a header that states a source with an allowed scalar, zero
only in SU, gives this source. -/
theorem C190_taken (z : Bool) (h : Header) (mapX mapY : ℚ → ℚ) (c x y : ℤ) (hs : StatesSource h c x y)
    (hc : AllowedScalar c) (hz : z = true ∨ c ≠ 0) :
    Arr.sourceFromHeader z h mapX mapY = .ok ⟨mapX (segyCoordinate c x), mapY (segyCoordinate c y), 0⟩ :=
  header_ok.2 ⟨c, x, y, hs, hz, by rw [scale_allowed hc, scale_allowed hc]⟩

/-- A header whose source is 12.34 m from the origin, and the same without a coordinate. -/
example : StatesSource (sourceHeader (-100) 1234 0) (-100) 1234 0 ∧ AllowedScalar (-100) ∧
    Arr.sourceFromHeader true (sourceHeader (-100) 1234 0) id id = .ok ⟨1234 / 100, 0, 0⟩ ∧
    Arr.sourceFromHeader true ((sourceHeader (-100) 1234 0).take 3) id id = .error .keyError := by
  refine ⟨⟨.inr (by decide +kernel), ⟨.int (-100), by decide +kernel, rfl⟩,
    ⟨.int 1234, by decide +kernel, rfl⟩, ⟨.int 0, by decide +kernel, rfl⟩⟩, .inr ⟨2, .inr (by norm_num)⟩, by decide +kernel, by decide +kernel⟩

/-- Two files with one source. -/
example : (Arr.fromFiles (fun f => if f = "1.su" ∨ f = "2.su" then
      some [⟨[1, 2, 3], 1 / 100, some "SU", none, some (sourceHeader (-100) 1234 0 ++ [("group_coordinate_x", .int 0)]), none⟩,
        ⟨[4, 5, 6], 1 / 100, some "SU", none, some (sourceHeader (-100) 1234 0 ++ [("group_coordinate_x", .int 200)]), none⟩]
      else none) ["1.su", "2.su"] id id).toOption.map (fun a => (a.source, a.sensors.length)) =
    some (⟨1234 / 100, 0, 0⟩, 2) := by
  decide +kernel

end Verif.Props
