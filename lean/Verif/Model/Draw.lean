import Verif.Model.Interact
import Verif.Model.Suite
import Verif.Model.PlotKwargs
import Verif.Model.Transform

/-!
# What the plotting methods draw

An axes object is what has been drawn on it.  Modelled are the numbers handed to `ax.plot` and `ax.contourf`, the
legend labels and the axis limits set; colours, markers, texts, ticks and figure layout are not.  matplotlib itself
is external: `ax.plot(x, y)` is taken to draw exactly the points given.
-/

namespace Verif.Draw

/-! ## `Array1D.waterfall` -/

/-- The curves (x values, y values) of a waterfall plot and the limits set on the axes. -/
structure Waterfall where
  curves : List (List Fl × List Fl)
  xlim : ℚ × ℚ
  ylim : ℚ × ℚ
  deriving DecidableEq, Repr

/-- `np.mean(np.diff(positions))/2`, array1d.py:300-301; NaN for a single receiver, which line 327 refuses
anyway. -/
def defaultScale (positions : List ℚ) : ℚ := (Arr.diff positions).sum / (Arr.diff positions).length / 2

/-- array1d.py:302-304 for one trace: scaled, then moved to its receiver. -/
def placeTrace (scale position : ℚ) (trace : List Fl) : List Fl :=
  trace.map fun v => Fl.add (Fl.mul v (.fin scale)) (.fin position)

/-- array1d.py:119-133 `position(normalize)`. -/
def positions (a : Arr) (normalize : Bool) : List ℚ :=
  if normalize then a.position.map fun x => x - a.position.headD 0 else a.position

/-- array1d.py:242-341 `waterfall`, for sensors with equally many samples.  `newAxes`: no axes were given.
`detrend` is `signal.detrend` or the identity.  With axes given, a `time_ax` that is neither "x" nor "y" is drawn like
"y" before `set_..lim` is looked up and fails (`AttributeError`); the curves drawn before an exception are not
modelled. -/
def waterfall (a : Arr) (newAxes : Bool) (timeAx : String) (detrend : List ℚ → List ℚ) (n : Arr.Normalize)
    (scale : Option ℚ) (posNormalize : Bool) : Except PyErr Waterfall :=
  if newAxes && timeAx != "x" && timeAx != "y" then .error .valueError
  else
    match a.sensors with
    | [] => .error .indexError
    | s0 :: _ =>
      let time := s0.ts.time
      match Arr.minList time, Arr.maxList time with
      | some t0, some t1 =>
        let pos := positions a posNormalize
        let k := scale.getD (defaultScale pos)
        let traces := List.zipWith (placeTrace k) pos (a.timeseriesmatrixFl detrend n)
        if timeAx != "x" && timeAx != "y" then .error .attributeError
        else
          match pos with
          | p0 :: p1 :: _ =>
            let dist := (p0 - (p1 - p0), pos.getLastD p0 + (p1 - p0))
            if timeAx = "x" then .ok ⟨traces.map fun tr => (time.map Fl.fin, tr), (t0, t1), dist⟩
            else .ok ⟨traces.map fun tr => (tr, time.map Fl.fin), dist, (t1, t0)⟩
          | _ => .error .indexError
      | _, _ => .error .valueError

/-- array1d.py:441-469 `manual_pick_first_arrivals`: `none` while the user has not finished.  The picks are unbounded
(`npts=np.inf`): there is always room for one more than the user has made.  The session starts with a pause and pauses
after each point (defaults of `ginput_session`). -/
def manualPick (a : Arr) (timeAx : String) (detrend : List ℚ → List ℚ) (n : Arr.Normalize) (scale : Option ℚ)
    (posNormalize : Bool) (u : Interact.User) : Option (Except PyErr (List ℚ × List ℚ)) :=
  match waterfall a true timeAx detrend n scale posNormalize with
  | .error e => some (.error e)
  | .ok _ =>
    match Interact.ginputSession true (u.picks.length + 1) true u with
    | none => none
    | some (xs, ys, _) => some (.ok (if timeAx = "y" then (xs, ys) else (ys, xs)))

/-! ## `Peaks.plot` and `PeaksSuite.plot` -/

/-- An entry of a list given as a plot option. -/
inductive Item
  | str (s : String)
  | none
  | num (q : ℚ)
  deriving DecidableEq, Repr

/-- The plot options of one member. -/
abbrev Options := List (String × PlotKwargs.Single Item)

/-- What one call of `ax.plot` draws: points and legend text (`none`: not given one). -/
structure Line where
  xs : List Fl
  ys : List Fl
  label : Option String
  deriving DecidableEq, Repr

/-- An axes object: what was drawn on it, in order. -/
abbrev Axes := List Line

/-- `Axes.get_legend_handles_labels()[1]` (matplotlib): empty labels and those beginning with an underscore do not
count. -/
def legend (ax : Axes) : List String :=
  (ax.filterMap Line.label).filter fun l => l != "" && !(l.toList.head? == some '_')

/-- The string behind a `label` option; a number as label is not modelled (no label). -/
def labelText : PlotKwargs.Single Item → Option String
  | .str s => some s
  | .none => none
  | .item (.str s) => some s
  | .item _ => none

/-- peaks.py:339-343: the label of the line, by default the identifier. -/
def lineLabel (identifier : String) (o : Options) : Option String :=
  match o.lookup "label" with
  | none => some identifier
  | some v => labelText v

/-- `d["label"] = None`. -/
def dropLabel (o : Options) : Options := o.map fun e => if e.1 == "label" then (e.1, .none) else e

/-- peaks.py:308-355 `_plot` on one axes object; a mask of another shape raises `IndexError` (numpy would
accept one of fewer dimensions; this is not modelled).  Private attributes
other than the data (`_valid`, methods) are not modelled as types to plot. -/
def plotOn (p : Peaks) (xtype ytype : String) (o : Options) (mask : Option (Nd Bool)) (ax : Axes) :
    Except PyErr Axes :=
  let m := mask.getD p.valid
  match p.raw xtype with
  | .error e => .error e
  | .ok x =>
    if m.shape ≠ x.shape then .error .indexError
    else
      match p.raw ytype with
      | .error e => .error e
      | .ok y =>
        if m.shape ≠ y.shape then .error .indexError
        else .ok (ax ++ [⟨x.select m, y.select m, lineLabel p.identifier o⟩])

/-- The loop over axes and types (peaks.py:248-252, peakssuite.py:284-287): axes drawn before an exception stay
drawn. -/
def plotEach (p : Peaks) (o : Options) (mask : Option (Nd Bool)) :
    List (String × String) → List Axes → Outcome (List Axes)
  | t :: ts, ax :: axs =>
    match plotOn p t.1 t.2 o mask ax with
    | .error e => (ax :: axs, .error e)
    | .ok ax' =>
      let r := plotEach p o mask ts axs
      (ax' :: r.1, r.2)
  | _, axs => (axs, .ok ())

/-- peakssuite.py:292-301, one further member: a label that is already in the legend of an axes object is dropped, for
this and the following axes objects. -/
def plotMore (p : Peaks) (label : Option String) (mask : Option (Nd Bool)) :
    Options → List (String × String) → List Axes → Outcome (List Axes)
  | o, t :: ts, ax :: axs =>
    let o' := if label.any fun l => (legend ax).contains l then dropLabel o else o
    match plotOn p t.1 t.2 o' mask ax with
    | .error e => (ax :: axs, .error e)
    | .ok ax' =>
      let r := plotMore p label mask o' ts axs
      (ax' :: r.1, r.2)
  | _, _, axs => (axs, .ok ())

/-- peakssuite.py:292 `_plot_kwargs.get("label", None)`. -/
def givenLabel (o : Options) : Option String := (o.lookup "label").bind labelText

/-- peakssuite.py:289-301: the loop over the further members. -/
def plotMembers (types : List (String × String)) :
    List (Peaks × Options × Option (Nd Bool)) → List Axes → Outcome (List Axes)
  | [], axs => (axs, .ok ())
  | (p, o, m) :: rest, axs =>
    match plotMore p (givenLabel o) m o types axs with
    | (axs', .error e) => (axs', .error e)
    | (axs', .ok ()) => plotMembers types rest axs'

/-- peaks.py:214-260 `plot`: the new axes.  No types: `plt.subplots(ncols=0)` raises `ValueError`. -/
def plotPeaks (p : Peaks) (xtype ytype : PlotKwargs.TypeArg) (o : Options) (mask : Option (Nd Bool)) :
    Except PyErr (List Axes) :=
  match PlotKwargs.prepareTypes xtype ytype with
  | .error e => .error e
  | .ok (xs, ys) =>
    if xs = [] then .error .valueError
    else
      match plotEach p o mask (xs.zip ys) (xs.map fun _ => []) with
      | (_, .error e) => .error e
      | (axs, .ok ()) => .ok axs

/-- peakssuite.py:218-310 `plot`: `given` are the caller's axes (`none`: new ones are made); the axes afterwards. -/
def plotSuite (s : Suite) (xtype ytype : PlotKwargs.TypeArg) (given : Option (List Axes))
    (kwargs : List (String × PlotKwargs.Value Item)) (mask : Option (List (Option (Nd Bool)))) :
    Outcome (List Axes) :=
  let before := given.getD []
  match PlotKwargs.prepareTypes xtype ytype with
  | .error e => (before, .error e)
  | .ok (xs, ys) =>
    match PlotKwargs.expand kwargs s.peaks.length with
    | .error e => (before, .error e)
    | .ok opts =>
      let masks := mask.getD (s.peaks.map fun _ => none)
      if masks.length ≠ s.peaks.length then (before, .error .indexError)
      else
        match s.peaks.zip (opts.zip masks) with
        | [] => (before, .error .indexError)
        | (p, o, m) :: rest =>
          let axs := given.getD (xs.map fun _ => [])
          if given = none ∧ xs = [] then (before, .error .valueError)
          else if axs.length ≠ xs.length then (before, .error .indexError)
          else
            match plotEach p o m (xs.zip ys) axs with
            | (axs', .error e) => (axs', .error e)
            | (axs', .ok ()) => plotMembers (xs.zip ys) rest axs'

/-- peakssuite.py:176-216 `plot_resolution_limits`: an undefined limit draws nothing (with a warning), otherwise the
two curves are drawn, the first with the label.  `xs`, `ys` are the 50 points per axis. -/
def plotResolution (ax : Axes) (xtype attr ytype : String) (limits : ℚ × ℚ) (xs ys : List ℚ)
    (label : Option String) : Outcome Axes :=
  match Suite.resolutionLimits xtype attr ytype limits xs ys with
  | .error .notImplementedError => (ax, .ok ())
  | .error e => (ax, .error e)
  | .ok (c1, c2) =>
    (ax ++ [⟨c1.1.map Fl.fin, c1.2.map Fl.fin, label⟩, ⟨c2.1.map Fl.fin, c2.2.map Fl.fin, none⟩], .ok ())

/-! ## `AbstractWavefieldTransform.plot` -/

/-- What is drawn of a transform: the image (axes of frequencies and velocities, and power), its contour levels, and
the line of peaks. -/
structure Image where
  frequencies : List ℚ
  velocities : List ℚ
  power : List (List ℚ)
  levels : List ℚ
  peaks : Option (List ℚ × List ℚ)
  deriving DecidableEq, Repr

/-- `np.linspace(0, top, 21)`. -/
def levels (top : ℚ) : List ℚ := (List.range 21).map fun (k : ℕ) => (k : ℚ) * (top / 20)

/-- The finite values of a matrix; `none` if any is not finite. -/
def finites (m : List (List Fl)) : Option (List (List ℚ)) :=
  if m.all fun row => row.all Fl.isFin then some (m.map fun row => row.map Fl.toRat) else none

/-- wavefieldtransforms.py:169-271 `plot`, without the colour bar and the near-field line: the state of the transform
afterwards and the image.  `axGiven`, `figGiven`: which of `ax` and `fig` the caller gave.  Levels that do not increase
are refused by `contourf` (`ValueError`); non-finite power gives non-finite levels, refused likewise. -/
def plotTransform (frequencies velocities : List ℚ) (s : WT.PowerState) (axGiven figGiven : Bool)
    (normalization peaks : String) : WT.PowerState × Except PyErr Image :=
  if axGiven && !figGiven then (s, .error .valueError)
  else
    match WT.normalize s normalization with
    | (s', .error e) => (s', .error e)
    | (s', .ok ()) =>
      match finites s'.power with
      | none => (s', .error .valueError)
      | some m =>
        match Arr.maxList m.flatten with
        | none => (s', .error .valueError)
        | some top =>
          if top ≤ 0 then (s', .error .valueError)
          else if peaks = "none" then (s', .ok ⟨frequencies, velocities, m, levels top, none⟩)
          else
            match WT.findPeakPower velocities (m.map fun row => row.map fun x => ⟨x, 0⟩) peaks with
            | .error e => (s', .error e)
            | .ok v => (s', .ok ⟨frequencies, velocities, m, levels top, some (frequencies, v)⟩)

end Verif.Draw
