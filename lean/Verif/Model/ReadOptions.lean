import Verif.Model.Files
import Verif.Model.Settings

/-!
# Read options of `Array1D.from_files`, and the type of the samples of source records

`obspy.read(name, **options)` is a map from options and names to traces; `none` stands for a call without options.
-/

namespace Verif
namespace Arr

/-- array1d.py:611-736 `from_files` with `obspy_read_kwargs`: the options are given to `obspy.read` for the first file
(line 657), not for the additional files (line 727). -/
def fromFilesOpts (read : Option Kwargs → Fs) (opts : Option Kwargs) (fnames : List String) (mapX mapY : ℚ → ℚ) :
    Except PyErr Arr :=
  match fnames with
  | [] => .error .indexError
  | f0 :: rest =>
    match readFile (read opts) f0 with
    | .error e => .error e
    | .ok traces =>
      match sensorsOf { mapX := mapX, mapY := mapY } traces with
      | .error e => .error e
      | .ok sensors =>
        match traces.getLast? with
        | none => .error .unboundLocalError
        | some t =>
          match t.format with
          | none => .error .attributeError
          | some format =>
            match parseSource format mapX mapY t with
            | .error e => .error e
            | .ok source =>
              match init sensors source with
              | .error e => .error e
              | .ok obj =>
                match stackFiles (read none) format mapX mapY source obj.sensors rest with
                | .error e => .error e
                | .ok ss => .ok { obj with sensors := ss }

end Arr

/-- `trace.data`: an array of integers or of floating point numbers. -/
inductive Samples
  | ints (l : List ℤ)
  | floats (l : List ℚ)
  deriving DecidableEq, Repr

namespace Samples

/-- The numbers, whatever their type. -/
def values : Samples → List ℚ
  | .ints l => l.map fun n => (n : ℚ)
  | .floats l => l

end Samples

namespace ArrSrc

/-- array1d.py:834 `amp += trace.data`, in place: numpy does not put floating point numbers into an array of integers
(`UFuncTypeError`, a `TypeError`, raised before the lengths are looked at).  Simplification: integers do not overflow. -/
def addSamples (acc : Except PyErr Samples) (s : Samples) : Except PyErr Samples :=
  match acc with
  | .error e => .error e
  | .ok (.floats l) =>
    match addSignal (.ok l) s.values with
    | .error e => .error e
    | .ok r => .ok (.floats r)
  | .ok (.ints l) =>
    match s with
    | .floats _ => .error .typeError
    | .ints m =>
      if m.length = l.length then .ok (.ints (List.zipWith (· + ·) l m))
      else if m.length = 1 then .ok (.ints (l.map (· + m.getD 0 0)))
      else .error .valueError

/-- array1d.py:829-835: the mean of the source signals; `amp /= len(fnames_src)` does not put quotients into an array of
integers. -/
def meanSamples (signals : List Samples) : Except PyErr (List ℚ) :=
  match signals with
  | [] => .error .indexError
  | s0 :: rest =>
    match rest.foldl addSamples (.ok s0) with
    | .error e => .error e
    | .ok (.ints _) => .error .typeError
    | .ok (.floats l) => .ok (l.map (· / ((rest.length : ℚ) + 1)))

end ArrSrc
end Verif
