import Verif.Model.RoundedCurves
import Verif.Props.Float64
import Verif.Props.PeaksReject

/-!
# C156: limits on derived values of peaks in binary64
-/

namespace Verif.Props.B64
open Verif Verif.B64 Verif.Spec

/-- Slowness and wavelength take one division. -/
def OneDivision (attr : String) : Prop := attr = "slowness" ∨ attr = "wavelength"

theorem raw64 {p : Peaks} {attr : String} {a : Nd Fl} (h : OneDivision attr) (ha : p.raw attr = .ok a) :
    B64.raw p attr = .ok ⟨a.shape, a.data.map rndFl⟩ := by
  rcases h with rfl | rfl
  · have : p.raw "slowness" = .ok (p.velocity.map Peaks.slownessOf) := rfl
    rw [this, Except.ok.injEq] at ha
    subst ha
    simp [B64.raw, Nd.map, Function.comp_def]
  · have : p.raw "wavelength" = .ok (Nd.zipWith Peaks.wavelengthOf p.velocity p.frequency) := rfl
    rw [this, Except.ok.injEq] at ha
    subst ha
    simp [B64.raw, Nd.zipWith, List.map_zipWith]

theorem below_fin (a b : ℚ) : Below (.fin a) (.fin b) ↔ a < b := by
  rw [← lt_iff_below]; simp [Fl.lt]

/-- **C156** (limits).  A peak whose slowness or wavelength is within the closed limits, which are binary64 numbers, is not
rejected although the value is rounded before it is compared; a peak which is outside by more than the part 2^-53 of its
value is rejected; and nothing else is changed. -/
theorem C156_limits_binary64 (p : Peaks) (hw : WfPeaks p) (attr : String) (ha : OneDivision attr) (lo hi : Option ℚ)
    (hlo : ∀ l ∈ lo, IsDouble l) (hhi : ∀ h ∈ hi, IsDouble h) :
    ∃ p', B64.rejectLimits p attr (lo.map .fin) (hi.map .fin) = (p', .ok ()) ∧ SameRecord p p' ∧
      ∀ i q, Value p attr i (.fin q) →
        (Remaining p' i → Remaining p i) ∧
        (Remaining p i → (∀ l ∈ lo, l ≤ q) → (∀ h ∈ hi, q ≤ h) → Remaining p' i) ∧
        ((∃ l ∈ lo, q + |q| / 2 ^ 53 < l) ∨ (∃ h ∈ hi, h < q - |q| / 2 ^ 53) → ¬ Remaining p' i) := by
  obtain ⟨a, hra⟩ : ∃ a, p.raw attr = .ok a := by rcases ha with rfl | rfl <;> exact ⟨_, rfl⟩
  have hl := (Peaks.raw_shape hw hra).2.trans hw.valid_len.symm
  have hr := raw64 ha hra
  refine ⟨p.reject (List.zipWith (Peaks.limitsMark (lo.map .fin) (hi.map .fin)) (a.data.map rndFl) p.valid.data), ?_,
    Peaks.reject_sameRecord (by simp [hl]), ?_⟩
  · simp [B64.rejectLimits, hr]
  · rintro i q ⟨a', ha', hv⟩
    rw [hra, Except.ok.injEq] at ha'
    subst ha'
    have key : Remaining (p.reject (List.zipWith (Peaks.limitsMark (lo.map .fin) (hi.map .fin)) (a.data.map rndFl)
        p.valid.data)) i ↔ Remaining p i ∧ ¬ OutsideLimits (lo.map .fin) (hi.map .fin) (.fin (rnd q)) := by
      rw [Peaks.reject_remaining]
      refine and_congr_right fun hrem => ?_
      unfold Remaining at hrem
      rw [List.getElem?_zipWith, List.getElem?_map, hv, hrem]
      simp only [Option.map_some, Option.some.injEq]
      rw [← limitsMark_iff]
      simp [rndFl]
    have hout : OutsideLimits (lo.map .fin) (hi.map .fin) (.fin (rnd q)) ↔
        (∃ l ∈ lo, rnd q < l) ∨ ∃ h ∈ hi, h < rnd q := by
      unfold OutsideLimits
      refine or_congr ?_ ?_
      · constructor
        · rintro ⟨l, h1, h2⟩
          obtain ⟨m, hm, rfl⟩ := Option.map_eq_some_iff.1 h1
          exact ⟨m, hm, (below_fin _ _).1 h2⟩
        · rintro ⟨l, h1, h2⟩
          exact ⟨.fin l, by rw [Option.mem_def.1 h1]; rfl, (below_fin _ _).2 h2⟩
      · constructor
        · rintro ⟨l, h1, h2⟩
          obtain ⟨m, hm, rfl⟩ := Option.map_eq_some_iff.1 h1
          exact ⟨m, hm, (below_fin _ _).1 h2⟩
        · rintro ⟨l, h1, h2⟩
          exact ⟨.fin l, by rw [Option.mem_def.1 h1]; rfl, (below_fin _ _).2 h2⟩
    have herr := abs_le.1 (rnd_error q)
    rw [key, hout]
    refine ⟨fun h => h.1, fun hrem h1 h2 => ⟨hrem, ?_⟩, ?_⟩
    · rintro (⟨l, hl, hlt⟩ | ⟨h, hh, hlt⟩)
      · exact absurd hlt (not_lt.2 (by
          have := rnd_mono (h1 l hl)
          rwa [rnd_double (hlo l hl)] at this))
      · exact absurd hlt (not_lt.2 (by
          have := rnd_mono (h2 h hh)
          rwa [rnd_double (hhi h hh)] at this))
    · rintro (⟨l, hl, hlt⟩ | ⟨h, hh, hlt⟩) ⟨-, hn⟩
      · exact hn (Or.inl ⟨l, hl, by linarith [herr.2]⟩)
      · exact hn (Or.inr ⟨h, hh, by linarith [herr.1]⟩)

theorem between_fin (u v q : ℚ) : Between (.fin u, .fin v) (.fin q) ↔ (u < q ∧ q < v) ∨ (v < q ∧ q < u) := by
  unfold Between
  simp only [below_fin]

theorem between_rnd {u v q : ℚ} (hu : IsDouble u) (hv : IsDouble v) (h : Between (.fin u, .fin v) (.fin (rnd q))) :
    Between (.fin u, .fin v) (.fin q) := by
  have lt1 : ∀ {c}, IsDouble c → c < rnd q → c < q := fun hc h => by
    by_contra hn
    have := rnd_mono (not_lt.1 hn)
    rw [rnd_double hc] at this
    exact absurd h (not_lt.2 this)
  have lt2 : ∀ {c}, IsDouble c → rnd q < c → q < c := fun hc h => by
    by_contra hn
    have := rnd_mono (not_lt.1 hn)
    rw [rnd_double hc] at this
    exact absurd h (not_lt.2 this)
  rw [between_fin] at h ⊢
  rcases h with ⟨h1, h2⟩ | ⟨h1, h2⟩
  · exact Or.inl ⟨lt1 hu h1, lt2 hv h2⟩
  · exact Or.inr ⟨lt1 hv h1, lt2 hu h2⟩

/-- **C156** (boxes).  A peak is rejected by a box in the wavelength-slowness, wavelength-velocity, ... plane, with corners at
binary64 numbers, only if it is strictly inside, although the derived value is rounded before it is compared; and it is
rejected if it is inside by more than the part 2^-53 of its derived value. -/
theorem C156_boxes_binary64 (p : Peaks) (hw : WfPeaks p) (xtype ytype : String) (hx : OneDivision xtype)
    (hy : ytype = "velocity" ∨ ytype = "frequency") (x1 x2 : ℚ) (h1 : IsDouble x1) (h2 : IsDouble x2) (y1 y2 : ℚ) :
    ∃ p', B64.rejectBox p xtype (.fin x1, .fin x2) ytype (.fin y1, .fin y2) = (p', .ok ()) ∧ SameRecord p p' ∧
      ∀ i x y, Value p xtype i (.fin x) → Value p ytype i (.fin y) →
        (Remaining p' i → Remaining p i) ∧
        (Remaining p i → ¬ (Between (.fin x1, .fin x2) (.fin x) ∧ Between (.fin y1, .fin y2) (.fin y)) → Remaining p' i) ∧
        (min x1 x2 < x - |x| / 2 ^ 53 → x + |x| / 2 ^ 53 < max x1 x2 → min y1 y2 < y → y < max y1 y2 →
          ¬ Remaining p' i) := by
  obtain ⟨a, hra⟩ : ∃ a, p.raw xtype = .ok a := by rcases hx with rfl | rfl <;> exact ⟨_, rfl⟩
  obtain ⟨b, hrb⟩ : ∃ b, p.raw ytype = .ok b := by rcases hy with rfl | rfl <;> exact ⟨_, rfl⟩
  have hrb' : B64.raw p ytype = .ok b := by rcases hy with rfl | rfl <;> exact hrb
  have hla := (Peaks.raw_shape hw hra).2.trans hw.valid_len.symm
  have hlb := (Peaks.raw_shape hw hrb).2.trans hw.valid_len.symm
  have hr := raw64 hx hra
  refine ⟨p.reject (List.zipWith (fun xy v => Peaks.boxMark (.fin x1, .fin x2) (.fin y1, .fin y2) xy.1 xy.2 v)
    ((a.data.map rndFl).zip b.data) p.valid.data), ?_, Peaks.reject_sameRecord (by simp [hla, hlb]), ?_⟩
  · simp [B64.rejectBox, hr, hrb']
  · rintro i x y ⟨a', ha', hxv⟩ ⟨b', hb', hyv⟩
    rw [hra, Except.ok.injEq] at ha'
    subst ha'
    rw [hrb, Except.ok.injEq] at hb'
    subst hb'
    have key : Remaining (p.reject (List.zipWith (fun xy v => Peaks.boxMark (.fin x1, .fin x2) (.fin y1, .fin y2) xy.1 xy.2 v)
        ((a.data.map rndFl).zip b.data) p.valid.data)) i ↔ Remaining p i ∧
          ¬ (Between (.fin x1, .fin x2) (.fin (rnd x)) ∧ Between (.fin y1, .fin y2) (.fin y)) := by
      rw [Peaks.reject_remaining]
      refine and_congr_right fun hrem => ?_
      unfold Remaining at hrem
      have hz : ((a.data.map rndFl).zip b.data)[i]? = some (.fin (rnd x), .fin y) := by
        rw [List.getElem?_zip_eq_some, List.getElem?_map, hxv]; exact ⟨rfl, hyv⟩
      rw [List.getElem?_zipWith, hz, hrem]
      simp only [Option.some.injEq]
      rw [← boxMark_iff _ _ ⟨by simp, by simp⟩ ⟨by simp, by simp⟩]
      simp
    have herr := abs_le.1 (rnd_error x)
    rw [key]
    refine ⟨fun h => h.1, fun hrem hn => ⟨hrem, fun hb => hn ⟨between_rnd h1 h2 hb.1, hb.2⟩⟩, ?_⟩
    rintro g1 g2 g3 g4 ⟨-, hn⟩
    refine hn ⟨(between_fin _ _ _).2 ?_, (between_fin _ _ _).2 ?_⟩
    · rcases le_total x1 x2 with h | h
      · rw [min_eq_left h] at g1; rw [max_eq_right h] at g2
        exact Or.inl ⟨by linarith [herr.1], by linarith [herr.2]⟩
      · rw [min_eq_right h] at g1; rw [max_eq_left h] at g2
        exact Or.inr ⟨by linarith [herr.1], by linarith [herr.2]⟩
    · rcases le_total y1 y2 with h | h
      · rw [min_eq_left h] at g3; rw [max_eq_right h] at g4
        exact Or.inl ⟨g3, g4⟩
      · rw [min_eq_right h] at g3; rw [max_eq_left h] at g4
        exact Or.inr ⟨g3, g4⟩

/-- **C156** (recorded values).  Limits on frequency, velocity and other recorded values compare the values themselves. -/
theorem C156_recorded_values (p : Peaks) (attr : String) (h : attr ∉ ["slowness", "wavelength", "wavenumber"])
    (lo hi : Option Fl) : B64.rejectLimits p attr lo hi = p.rejectLimits attr lo hi := by
  simp only [List.mem_cons, List.not_mem_nil, or_false, not_or] at h
  unfold B64.rejectLimits B64.raw Peaks.rejectLimits
  rw [if_neg h.1, if_neg h.2.1, if_neg h.2.2]
  cases p.raw attr <;> rfl

set_option maxRecDepth 10000 in
/-- Two peaks at 300 m/s: a wavelength of 30 m at 10 Hz, which is the limit and stays, and one of 42.857... m at 7 Hz, which is
above the limit and does not. -/
example : (B64.rejectLimits ⟨"a", ⟨[2], [.fin 10, .fin 7]⟩, ⟨[2], [.fin 300, .fin 300]⟩, [], ⟨[2], [true, true]⟩⟩
    "wavelength" none (some (.fin 30))).1.valid.data = [true, false] := by decide +kernel

set_option maxRecDepth 10000 in
/-- A peak which is above the limit by less than the rounding stays: 1 m/s at 3 Hz, and the binary64 number below a third. -/
example : (6004799503160661 / 2 ^ 54 : ℚ) < 1 / 3 ∧
    (B64.rejectLimits ⟨"a", ⟨[1], [.fin 3]⟩, ⟨[1], [.fin 1]⟩, [], ⟨[1], [true]⟩⟩
      "wavelength" none (some (.fin (6004799503160661 / 2 ^ 54)))).1.valid.data = [true] := by decide +kernel

end Verif.Props.B64
