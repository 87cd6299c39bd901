import Verif.Model.Workflow

/-!
# Model of `__str__` in `swprocess/maswworkflows.py`
-/

namespace Verif
namespace Workflow

/-- maswworkflows.py:168-179, 186-197, 242-254, 307-319: the lines of `str(workflow)` for the workflow registered under a
name (157, 182, 200, 257), without the empty first line. -/
def describe (name : String) : Option (List String) :=
  if name = "single" then some
    ["MaswWorkflow: single",
     "  - Create Array1D from file (ignore if multiple).",
     "  - Check array is acceptable.",
     "  - Perform trim in space (if desired).",
     "  - Perform linear detrend on each trace.",
     "  - Perform trim in time (if desired).",
     "  - Perform mute (if desired).",
     "  - Perform pad  (if desired).",
     "  - Perform transform."]
  else if name = "time-domain" then some
    ["MaswWorkflow: time-domain",
     "  - Create Array1D from files.",
     "  - Check array is acceptable.",
     "  - Perform trim in space (if desired).",
     "  - Perform linear detrend on each trace.",
     "  - Perform trim in time (if desired).",
     "  - Perform mute (if desired).",
     "  - Perform pad  (if desired).",
     "  - Perform transform."]
  else if name = "time-domain-xcorr" then some
    ["MaswWorkflow: time-domain",
     "  - Create Array1D from files.",
     "  - Check array is acceptable.",
     "  - Perform trim in space (if desired).",
     "  - Perform linear detrend on each trace.",
     "  - Cross-correlate traces with source.",
     "  - Perform trim in time (if desired).",
     "  - Perform mute (if desired).",
     "  - Perform pad  (if desired).",
     "  - Perform transform."]
  else if name = "frequency-domain" then some
    ["MaswWorkflow: frequency-domain",
     "  - Create Array1D from file.",
     "  - Check array is acceptable.",
     "  - Perform trim in space (if desired).",
     "  - Perform linear detrend on each trace.",
     "  - Perform trim in time (if desired).",
     "  - Perform mute (if desired).",
     "  - Perform pad  (if desired).",
     "  - Perform transform.",
     "  - Repeat steps for remaining files, stacking in frequency-domain."]
  else none

end Workflow
end Verif
