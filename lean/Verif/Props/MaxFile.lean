import Verif.Lemmas.MaxLine
import Verif.Py.FloatText

/-!
# C86, C87, C88: which `.max` files are read, and as which wave

The texts are arbitrary unless a hypothesis says otherwise; `num` stands for `float`.
-/

namespace Verif.Props
open Verif Re MaxFile Spec

/-! ## C87: wave types -/

/-- The accepted wave types are the five documented ones, each standing for its name with a capital. -/
theorem C87_accepted (w v : String) :
    validateWavetype w = .ok v ↔
      (w, v) ∈ [("rayleigh", "Rayleigh"), ("love", "Love"), ("vertical", "Vertical"), ("radial", "Radial"),
        ("transverse", "Transverse")] := by
  unfold validateWavetype
  split_ifs with h1 h2 h3 h4 h5 <;> simp_all [eq_comm]

/-- Every other text is refused. -/
theorem C87_refused (w : String) (h : w ∉ ["rayleigh", "love", "vertical", "radial", "transverse"]) :
    validateWavetype w = .error .valueError := by
  simp only [List.mem_cons, List.not_mem_nil, or_false, not_or] at h
  obtain ⟨h1, h2, h3, h4, h5⟩ := h
  simp [validateWavetype, h1, h2, h3, h4, h5]

theorem validate_ok {w v : String} (h : validateWavetype w = .ok v) :
    w ∈ ["rayleigh", "love", "vertical", "radial", "transverse"] := by
  have := (C87_accepted w v).1 h
  simp only [List.mem_cons, Prod.mk.injEq, List.not_mem_nil, or_false] at this ⊢
  tauto

theorem adjust_supported {w : String} {found : Option (List Char)} {v : String}
    (h : validateWavetype (adjustWave w found) = .ok v) :
    w ∈ ["rayleigh", "love", "vertical", "radial", "transverse"] := by
  unfold adjustWave at h
  split_ifs at h with h0
  · simp [h0.1]
  · exact validate_ok h

/-- No file is read with a wave type that is not one of the five. -/
theorem C87_never_read (num : List Char → Except PyErr Fl) (file : Option (List Char)) (w : String) (p : Peaks)
    (h : peaksFromMax num file w = .ok p) : w ∈ ["rayleigh", "love", "vertical", "radial", "transverse"] := by
  cases file with
  | none => simp [peaksFromMax] at h
  | some text =>
    simp only [peaksFromMax, parsePeaks, bind, Except.bind] at h
    cases h1 : versionOf text with
    | error e => simp [h1] at h
    | ok v =>
      simp only [h1] at h
      cases h2 : checkVersion v with
      | error e => simp [h2] at h
      | ok _ =>
        simp only [h2] at h
        cases h3 : waveOf text with
        | error e => simp [h3] at h
        | ok found =>
          simp only [h3] at h
          cases h4 : processOf text found with
          | error e => simp [h4] at h
          | ok process =>
            simp only [h4] at h
            cases h5 : validateWavetype (adjustWave w found) with
            | error e => simp [h5] at h
            | ok wave => exact adjust_supported h5

/-- Nor any list of files. -/
theorem C87_never_read_suite (num : List Char → Except PyErr Fl) (files : List (Option (List Char))) (w : String)
    (s : Suite) (h : suiteFromMax num files w = .ok s) :
    w ∈ ["rayleigh", "love", "vertical", "radial", "transverse"] := by
  cases files with
  | nil => simp [suiteFromMax, readFiles, Suite.fromPeaks, bind, Except.bind] at h
  | cons f fs =>
    simp only [suiteFromMax, readFiles, bind, Except.bind] at h
    cases h0 : MaxFile.readFile num f w with
    | error e => simp [h0] at h
    | ok r =>
      clear h
      cases f with
      | none => simp [MaxFile.readFile] at h0
      | some text =>
        simp only [MaxFile.readFile, bind, Except.bind] at h0
        cases h1 : versionOf text with
        | error e => simp [h1] at h0
        | ok v =>
          simp only [h1] at h0
          cases h2 : checkVersion v with
          | error e => simp [h2] at h0
          | ok _ =>
            simp only [h2] at h0
            cases h3 : waveOf text with
            | error e => simp [h3] at h0
            | ok found =>
              simp only [h3] at h0
              cases h4 : nmaximaOf text with
              | error e => simp [h4] at h0
              | ok process =>
                simp only [h4] at h0
                cases h5 : validateWavetype (adjustWave w found) with
                | error e => simp [h5] at h0
                | ok wave => exact adjust_supported h5

/-! ## C86: versions -/

theorem run_seq_head {a b : Re} {s : List Char} {h h' : Hit} (ha : (run a s).head? = some h)
    (hb : (run b h.rest).head? = some h') :
    (run (.seq a b) s).head? = some ⟨h.text ++ h'.text, h.groups ++ h'.groups, h'.rest⟩ := by
  simp only [run]
  cases hr : run a s with
  | nil => simp [hr] at ha
  | cons x xs =>
    simp only [hr, List.head?_cons, Option.some.injEq] at ha
    subst ha
    cases hr2 : run b x.rest with
    | nil => simp [hr2] at hb
    | cons y ys =>
      simp only [hr2, List.head?_cons, Option.some.injEq] at hb
      subst hb
      simp [hr2]

theorem run_grp_head {a : Re} {s : List Char} {h : Hit} (ha : (run a s).head? = some h) :
    (run (.grp a) s).head? = some ⟨h.text, h.text :: h.groups, h.rest⟩ := by
  simp [run, ha]

theorem manyRun_head (p : Char → Bool) (d s : List Char) (hd : ∀ c ∈ d, p c = true)
    (hs : ∀ c ∈ s.head?, p c = false) : (manyRun p (d ++ s)).head? = some (d, s) := by
  induction d with
  | nil =>
    cases s with
    | nil => rfl
    | cons c s =>
      have : p c = false := hs c (by simp)
      simp [manyRun, this]
  | cons c d ih =>
    have h1 := ih fun x hx => hd x (List.mem_cons_of_mem _ hx)
    have h2 : p c = true := hd c (List.mem_cons_self ..)
    simp only [List.cons_append, manyRun, h2, if_true, List.head?_append, List.head?_map, h1]
    rfl

theorem run_digits_head (d s : List Char) (hd : Digits d) (hne : d ≠ []) (hs : ∀ c ∈ s.head?, digit c = false) :
    (run (.grp (.seq (.cls digit) (.many digit))) (d ++ s)).head? = some ⟨d, [d], s⟩ := by
  have hdig : ∀ c ∈ d, digit c = true := fun c hc => by simp [digit, hd c hc]
  cases d with
  | nil => exact absurd rfl hne
  | cons c d =>
    have h1 : (run (.cls digit) ((c :: d) ++ s)).head? = some ⟨[c], [], d ++ s⟩ := by
      simp [run, hdig c (List.mem_cons_self ..)]
    have h2 : (run (.many digit) (d ++ s)).head? = some ⟨d, [], s⟩ := by
      simp [run, manyRun_head digit d s (fun x hx => hdig x (List.mem_cons_of_mem _ hx)) hs]
    simpa using run_grp_head (run_seq_head h1 h2)

theorem run_lits_head (t s : List Char) : (run (litChars t) (t ++ s)).head? = some ⟨t, [], s⟩ := by
  induction t with
  | nil => rfl
  | cons c t ih =>
    have h1 : (run (lit c) ((c :: t) ++ s)).head? = some ⟨[c], [], t ++ s⟩ := by simp [lit, run]
    simpa [litChars] using run_seq_head h1 ih

/-- What the pattern of the version needs. -/
theorem parse_version {w : List Char} {g : List (List Char)} (h : Parse versionRe w g) :
    ∃ a b c : List Char, ∃ x y : Char, w = "geopsypack-".toList ++ (a ++ x :: (b ++ y :: c)) ∧ g = [a, b, c] ∧
      Digits a ∧ a ≠ [] ∧ Digits b ∧ b ≠ [] ∧ Digits c ∧ c ≠ [] := by
  have hd : ∀ {w g}, Parse (.seq (.cls digit) (.many digit)) w g → Digits w ∧ w ≠ [] ∧ g = [] := by
    rintro w g ⟨w₁, w₂, g₁, g₂, rfl, rfl, ⟨⟨c, hc, rfl⟩, rfl⟩, h2, rfl⟩
    refine ⟨?_, by simp, rfl⟩
    intro x hx
    have : digit x = true := by
      rcases List.mem_cons.1 hx with rfl | hx
      · exact hc
      · exact h2 x hx
    simpa [digit] using this
  obtain ⟨w0, w1, g0, g1, rfl, rfl, p0, a, w2, g2, g3, rfl, rfl, ⟨ga, rfl, pa⟩, x', w3, g4, g5, rfl, rfl, ⟨⟨x, -, rfl⟩, rfl⟩,
    b, w4, g6, g7, rfl, rfl, ⟨gb, rfl, pb⟩, y', w5, g8, g9, rfl, rfl, ⟨⟨y, -, rfl⟩, rfl⟩, c, w6, g10, g11, rfl, rfl,
    ⟨gc, rfl, pc⟩, rfl, rfl⟩ := h
  obtain ⟨rfl, rfl⟩ := (parse_litChars _ _ _).1 p0
  obtain ⟨a1, a2, rfl⟩ := hd pa
  obtain ⟨b1, b2, rfl⟩ := hd pb
  obtain ⟨c1, c2, rfl⟩ := hd pc
  exact ⟨a, b, c, x, y, by simp, by simp, a1, a2, b1, b2, c1, c2⟩

/-- The version read is the one written first. -/
theorem versionOf_written (pre a b c post : List Char) (ha : Digits a) (ha0 : a ≠ []) (hb : Digits b) (hb0 : b ≠ [])
    (hc : Digits c) (hc0 : c ≠ []) (hpost : ∀ d ∈ post.head?, ¬ ('0' ≤ d ∧ d ≤ '9'))
    (hpre : ∀ p q, pre ++ "geopsypack-".toList = p ++ "geopsypack-".toList ++ q → q = []) :
    versionOf (pre ++ ("geopsypack-".toList ++ (a ++ '.' :: (b ++ '.' :: (c ++ post))))) =
      .ok (a ++ '.' :: b ++ '.' :: c) := by
  have hnd : ∀ d ∈ post.head?, digit d = false := by
    intro d hd
    have := hpost d hd
    simp only [digit, Bool.and_eq_false_iff, decide_eq_false_iff_not]
    tauto
  set s := "geopsypack-".toList ++ (a ++ '.' :: (b ++ '.' :: (c ++ post))) with hs
  have hrun : (run versionRe s).head? = some ⟨"geopsypack-".toList ++ (a ++ '.' :: (b ++ '.' :: c)), [a, b, c], post⟩ := by
    have d1 : (run (.cls any) ('.' :: (b ++ '.' :: (c ++ post)))).head? = some ⟨['.'], [], b ++ '.' :: (c ++ post)⟩ := rfl
    have d2 : (run (.cls any) ('.' :: (c ++ post))).head? = some ⟨['.'], [], c ++ post⟩ := rfl
    have e0 : (run .eps post).head? = some ⟨[], [], post⟩ := rfl
    have h6 := run_seq_head (run_digits_head c post hc hc0 hnd) e0
    have h5 := run_seq_head d2 h6
    have h4 := run_seq_head (run_digits_head b ('.' :: (c ++ post)) hb hb0 (by simp; decide)) h5
    have h3 := run_seq_head d1 h4
    have h2 := run_seq_head (run_digits_head a ('.' :: (b ++ '.' :: (c ++ post))) ha ha0 (by simp; decide)) h3
    have h1 := run_seq_head (run_lits_head "geopsypack-".toList (a ++ '.' :: (b ++ '.' :: (c ++ post)))) h2
    rw [hs]
    simpa [versionRe, seqs, lits] using h1
  have hsearch : search versionRe (pre ++ s) = some ⟨"geopsypack-".toList ++ (a ++ '.' :: (b ++ '.' :: c)), [a, b, c], post⟩ := by
    clear_value s
    induction pre with
    | nil =>
      cases s with
      | nil => exact absurd hs (by simp)
      | cons x s => simp only [List.nil_append, search, hrun]
    | cons x pre ih =>
      have hnone : (run versionRe (x :: pre ++ s)).head? = none := by
        rw [List.head?_eq_none_iff, run_eq_nil_iff]
        rintro ⟨w, g, t, h1, h2⟩
        obtain ⟨a', b', c', x', y', rfl, -⟩ := parse_version h2
        -- the prefix would be found before the end of `pre`
        obtain ⟨q, hq⟩ : ∃ q, x :: pre ++ "geopsypack-".toList = [] ++ "geopsypack-".toList ++ q := by
          have hle : ("geopsypack-".toList) <+: (x :: pre ++ s) := by
            rw [h1, List.append_assoc]; exact List.prefix_append _ _
          have hle2 : (x :: pre ++ "geopsypack-".toList) <+: (x :: pre ++ s) := by
            rw [hs, ← List.append_assoc]; exact List.prefix_append _ _
          obtain ⟨q, hq⟩ := List.prefix_of_prefix_length_le hle hle2 (by simp)
          exact ⟨q, by simpa using hq.symm⟩
        have hq0 := hpre [] q hq
        subst hq0
        have := congrArg List.length hq
        simp at this
      simp only [List.cons_append] at hnone
      simp only [List.cons_append, search, hnone]
      refine ih ?_
      intro p q hpq
      exact hpre (x :: p) q (by simp only [List.cons_append] at hpq ⊢; rw [hpq])
  unfold versionOf
  rw [hsearch]
  rfl

/-- A file whose first version, written `a.b.c`, is not a supported one raises `ValueError`, whatever else is in it,
whatever the wave type, before any number is converted. -/
theorem C86_version_gate_partial (num : List Char → Except PyErr Fl) (pre a b c post : List Char) (w : String)
    (ha : Digits a) (ha0 : a ≠ []) (hb : Digits b) (hb0 : b ≠ []) (hc : Digits c) (hc0 : c ≠ [])
    (hpost : ∀ d ∈ post.head?, ¬ ('0' ≤ d ∧ d ≤ '9'))
    (hpre : ∀ p q, pre ++ "geopsypack-".toList = p ++ "geopsypack-".toList ++ q → q = [])
    (hv : a ++ '.' :: b ++ '.' :: c ≠ "3.2.0".toList) :
    let text := pre ++ ("geopsypack-".toList ++ (a ++ '.' :: (b ++ '.' :: (c ++ post))))
    peaksFromMax num (some text) w = .error .valueError ∧
      (∀ fs, readFiles num w (some text :: fs) = .error .valueError) ∧
      ∀ fs, suiteFromMax num (some text :: fs) w = .error .valueError := by
  intro text
  have h := versionOf_written pre a b c post ha ha0 hb hb0 hc hc0 hpost hpre
  have hcheck : checkVersion (a ++ '.' :: b ++ '.' :: c) = .error .valueError := by
    unfold checkVersion supportedVersions
    rw [if_neg]
    simpa using hv
  have hr : ∀ fs, readFiles num w (some text :: fs) = .error .valueError := by
    intro fs
    simp only [readFiles, MaxFile.readFile, bind, Except.bind]
    rw [show versionOf text = _ from h]
    simp only [hcheck]
  refine ⟨?_, hr, ?_⟩
  · simp only [peaksFromMax, bind, Except.bind]
    rw [show versionOf text = _ from h]
    simp only [hcheck]
  · intro fs
    simp only [suiteFromMax, bind, Except.bind, hr]

/-- A file whose first version is written 3.2.0 is let through. -/
theorem C86_supported_is_read (num : List Char → Except PyErr Fl) (pre post : List Char) (w : String)
    (hpost : ∀ d ∈ post.head?, ¬ ('0' ≤ d ∧ d ≤ '9'))
    (hpre : ∀ p q, pre ++ "geopsypack-".toList = p ++ "geopsypack-".toList ++ q → q = []) :
    let text := pre ++ ("geopsypack-".toList ++ ("3.2.0".toList ++ post))
    peaksFromMax num (some text) w = parsePeaks num text w none none none := by
  intro text
  have h : versionOf text = _ := versionOf_written pre ['3'] ['2'] ['0'] post (by decide) (by decide) (by decide)
    (by decide) (by decide) (by decide) hpost hpre
  simp only [peaksFromMax, bind, Except.bind, h]
  rfl

/-- A file that is read names the version 3.2.0, with some character between the digits. -/
theorem C86_read_names_version (num : List Char → Except PyErr Fl) (file : Option (List Char)) (w : String) (p : Peaks)
    (h : peaksFromMax num file w = .ok p) :
    ∃ (pre post : List Char) (x y : Char),
      file = some (pre ++ ("geopsypack-".toList ++ '3' :: x :: '2' :: y :: '0' :: post)) := by
  cases file with
  | none => simp [peaksFromMax] at h
  | some text =>
    simp only [peaksFromMax, bind, Except.bind] at h
    cases h1 : versionOf text with
    | error e => simp [h1] at h
    | ok v =>
      simp only [h1] at h
      cases h2 : checkVersion v with
      | error e => simp [h2] at h
      | ok _ =>
        clear h
        have hv : v = "3.2.0".toList := by
          unfold checkVersion supportedVersions at h2
          split_ifs at h2 with h3
          simpa using h3
        unfold versionOf at h1
        cases hs : search versionRe text with
        | none => simp [hs] at h1
        | some hit =>
          obtain ⟨pre, e1, e2, -⟩ := search_eq_some hs
          obtain ⟨a, b, c, x, y, e3, e4, a1, a2, b1, b2, c1, c2⟩ := parse_version e2
          simp only [hs, Option.map_some, e4] at h1
          have h5 : a ++ '.' :: (b ++ '.' :: c) = ['3'] ++ '.' :: (['2'] ++ '.' :: ['0']) := by
            have := (Except.ok.inj h1).trans hv
            simpa using this
          have nodot : ∀ {d : List Char}, Digits d → '.' ∉ d := by
            intro d hd hm
            exact absurd (hd _ hm) (by decide)
          obtain ⟨rfl, h6⟩ := split_unique (nodot a1) (by decide) h5
          obtain ⟨rfl, rfl⟩ := split_unique (nodot b1) (by decide) h6
          exact ⟨pre, hit.rest, x, y, by rw [e1, e3]; simp⟩

/-- The gate is on the text between the digits too: version `31210` passes for 3.2.0. -/
theorem C86_wildcard_counterexample :
    versionOf "from geopsypack-31210\n".toList = .ok "3.2.0".toList ∧
    checkVersion "3.2.0".toList = .ok () := by
  constructor <;> decide +kernel

/-- The hypotheses of the gate are met by a version line. -/
example : peaksFromMax FloatText.float (some "geopsypack-3.4.2\n".toList) "rayleigh" = .error .valueError :=
  (C86_version_gate_partial FloatText.float [] ['3'] ['4'] ['2'] ['\n'] "rayleigh" (by decide) (by decide) (by decide)
    (by decide) (by decide) (by decide) (by decide)
    (by intro p q h; have := congrArg List.length h; simp at this; exact List.length_eq_zero_iff.1 (by omega))
    (by decide)).1

example : peaksFromMax FloatText.float (some "# QGpCoreTools 2.2.0 from geopsypack-3.4.2\n0 5 Rayleigh 1 2 3 4 5 1\n".toList)
    "rayleigh" = .error .valueError := by decide +kernel

/-! ## C88: each file is read with the wave type asked for -/

/-- The wave type found in a file is `Vertical`. -/
def VerticalFile (f : Option (List Char)) : Prop := ∃ text, f = some text ∧ waveOf text = .ok (some "Vertical".toList)

/-- Each file read by itself. -/
def readAlone (num : List Char → Except PyErr Fl) (w : String) (f : Option (List Char)) : Except PyErr (List Peaks) :=
  readFiles num w [f]

theorem readAlone_eq (num : List Char → Except PyErr Fl) (w : String) (f : Option (List Char)) :
    readAlone num w f = (MaxFile.readFile num f w).map Prod.snd := by
  unfold readAlone
  simp only [readFiles, bind, Except.bind, pure, Except.pure]
  cases MaxFile.readFile num f w <;> simp [Except.map]

/-- What reading a file does to the wave type used afterwards. -/
theorem readFile_wave {num : List Char → Except PyErr Fl} {f : Option (List Char)} {w w' : String} {ps : List Peaks}
    (h : MaxFile.readFile num f w = .ok (w', ps)) :
    (w' = w ∧ ¬ (w = "rayleigh" ∧ VerticalFile f)) ∨ (w' = "vertical" ∧ w = "rayleigh" ∧ VerticalFile f) := by
  cases f with
  | none => simp [MaxFile.readFile] at h
  | some text =>
    simp only [MaxFile.readFile, bind, Except.bind] at h
    cases h1 : versionOf text with
    | error e => simp [h1] at h
    | ok v =>
      simp only [h1] at h
      cases h2 : checkVersion v with
      | error e => simp [h2] at h
      | ok _ =>
        simp only [h2] at h
        cases h3 : waveOf text with
        | error e => simp [h3] at h
        | ok found =>
          simp only [h3] at h
          cases h4 : nmaximaOf text with
          | error e => simp [h4] at h
          | ok n =>
            simp only [h4] at h
            cases h5 : validateWavetype (adjustWave w found) with
            | error e => simp [h5] at h
            | ok wave =>
              simp only [h5] at h
              split at h
              · simp at h
              · simp only [pure, Except.pure, Except.ok.injEq, Prod.mk.injEq] at h
                obtain ⟨rfl, -⟩ := h
                unfold adjustWave
                by_cases hc : w = "rayleigh" ∧ found = some "Vertical".toList
                · right
                  rw [if_pos hc]
                  exact ⟨rfl, hc.1, text, rfl, by rw [h3, hc.2]⟩
                · left
                  rw [if_neg hc]
                  refine ⟨rfl, ?_⟩
                  rintro ⟨e1, t, e2, e3⟩
                  obtain rfl := Option.some.inj e2
                  rw [h3] at e3
                  exact hc ⟨e1, Except.ok.inj e3⟩

/-- A single-component file is read alike for `rayleigh` and for `vertical`. -/
theorem readFile_vertical {num : List Char → Except PyErr Fl} {f : Option (List Char)} (hf : VerticalFile f) :
    MaxFile.readFile num f "vertical" = MaxFile.readFile num f "rayleigh" := by
  obtain ⟨text, rfl, h⟩ := hf
  have h1 : adjustWave "vertical" (some "Vertical".toList) = "vertical" := by decide
  have h2 : adjustWave "rayleigh" (some "Vertical".toList) = "vertical" := by decide
  simp only [MaxFile.readFile, h, bind, Except.bind]
  rw [h1, h2]

/-- If no file that is not single-component comes after one that is, each file is read as it is by itself. -/
theorem C88_files_independent_partial (num : List Char → Except PyErr Fl) (w : String) (files : List (Option (List Char)))
    (h : w = "rayleigh" → files.Pairwise fun f g => VerticalFile f → VerticalFile g) :
    readFiles num w files = (files.mapM (readAlone num w)).map List.flatten := by
  have hv : ∀ fs : List (Option (List Char)), (∀ f ∈ fs, VerticalFile f) →
      readFiles num "vertical" fs = readFiles num "rayleigh" fs := by
    intro fs
    induction fs with
    | nil => intro _; rfl
    | cons f fs ih =>
      intro hf
      have h1 := hf f (List.mem_cons_self ..)
      simp only [readFiles, bind, Except.bind]
      rw [readFile_vertical h1]
  induction files with
  | nil => rfl
  | cons f fs ih =>
    have ih' := ih fun e => (List.pairwise_cons.1 (h e)).2
    simp only [List.mapM_cons, readAlone_eq, bind, Except.bind]
    simp only [readFiles, bind, Except.bind]
    cases hr : MaxFile.readFile num f w with
    | error e => rfl
    | ok r =>
      obtain ⟨w', ps⟩ := r
      have hrest : readFiles num w' fs = readFiles num w fs := by
        rcases readFile_wave hr with ⟨e1, -⟩ | ⟨e1, e2, e3⟩
        · rw [e1]
        · rw [e1, e2]
          exact hv fs fun g hg => (List.pairwise_cons.1 (h e2)).1 g hg e3
      simp only [Except.map, hrest, ih']
      have : (fun f => Except.map Prod.snd (MaxFile.readFile num f w)) = readAlone num w := by
        funext f
        exact (readAlone_eq num w f).symm
      cases hm : List.mapM (readAlone num w) fs with
      | error e => simp
      | ok qs => simp [pure, Except.pure]

/-- Header of the files below. -/
def maxHeader : String := "geopsypack-3.2.0\nPROCESS_TYPE=RTBF\nN_MAXIMA=2\n"

/-- A single-component file. -/
def verticalText : List Char := (maxHeader ++ "7 5 Vertical 0.005 10 1 2 3 1\n").toList

/-- A three-component file. -/
def rayleighText : List Char := (maxHeader ++ "9 5 Rayleigh 0.004 20 1 2 3 1\n").toList

/-- After a single-component file, the peaks of a three-component file are dropped without notice; alone they are
read. -/
theorem C88_files_interfere_fails :
    (readFiles FloatText.float "rayleigh" [some verticalText, some rayleighText]).map List.length = .ok 1 ∧
    (readFiles FloatText.float "rayleigh" [some verticalText]).map List.length = .ok 1 ∧
    (readFiles FloatText.float "rayleigh" [some rayleighText]).map List.length = .ok 1 ∧
    (readFiles FloatText.float "rayleigh" [some rayleighText, some verticalText]).map List.length = .ok 2 := by
  refine ⟨?_, ?_, ?_, ?_⟩ <;> decide +kernel

/-- The order of the last line meets the hypothesis of `C88_files_independent_partial`. -/
example : ("rayleigh" = "rayleigh" → [some rayleighText, some verticalText].Pairwise
    fun f g => VerticalFile f → VerticalFile g) := by
  intro _
  refine List.pairwise_cons.2 ⟨?_, List.pairwise_singleton _ _⟩
  intro g hg _
  simp only [List.mem_cons, List.not_mem_nil, or_false] at hg
  subst hg
  exact ⟨verticalText, rfl, by decide +kernel⟩

/-- The word `inf` before the first data line (`geopsy` writes `MAXIMUM_DISTANCE=inf`) hides that a file is
single-component, and its peaks are not found. -/
theorem C88_inf_hides_wave_fails :
    waveOf ("MAXIMUM_DISTANCE=inf\n".toList ++ verticalText) = .ok none ∧
    readFiles FloatText.float "rayleigh" [some ("MAXIMUM_DISTANCE=inf\n".toList ++ verticalText)] = .ok [] ∧
    peaksFromMax FloatText.float (some ("MAXIMUM_DISTANCE=inf\n".toList ++ verticalText)) "rayleigh" =
      .error .attributeError := by
  refine ⟨?_, ?_, ?_⟩ <;> decide +kernel

end Verif.Props
