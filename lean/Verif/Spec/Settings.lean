import Verif.Model.Settings

/-!
# Where the settings are documented to be

The table of `Masw.create_settings_dict` (masw.py:106-155 and the comments of `create_settings_file`,
masw.py:171-229): the place of every argument.
-/

namespace Verif.Spec
open Verif

/-- Place and value of every argument except `nvel` and `window_kwargs`. -/
def documentedPlaces (a : SettingsArgs) : List (List String × Val) :=
  [(["workflow"], .str a.workflow),
   (["pre-processing", "trim", "apply"], .bool a.trim),
   (["pre-processing", "trim", "begin"], .num (.fin a.trim_begin)),
   (["pre-processing", "trim", "end"], .num (.fin a.trim_end)),
   (["pre-processing", "mute", "apply"], .bool a.mute),
   (["pre-processing", "mute", "method"], .str a.method),
   (["pre-processing", "pad", "apply"], .bool a.pad),
   (["pre-processing", "pad", "df"], .num (.fin a.df)),
   (["pre-processing", "offsets", "min"], .num (.fin a.min_offset)),
   (["pre-processing", "offsets", "max"], .num a.max_offset),
   (["processing", "transform"], .str a.transform),
   (["processing", "fmin"], .num (.fin a.fmin)),
   (["processing", "fmax"], .num (.fin a.fmax)),
   (["processing", "vmin"], .num (.fin a.vmin)),
   (["processing", "vmax"], .num (.fin a.vmax)),
   (["processing", "vspace"], .str a.vspace),
   (["processing", "fdbf-specific", "weighting"], .str a.weighting),
   (["processing", "fdbf-specific", "steering"], .str a.steering),
   (["signal-to-noise", "perform"], .bool a.snr),
   (["signal-to-noise", "noise", "begin"], .num (.fin a.noise_begin)),
   (["signal-to-noise", "noise", "end"], .num (.fin a.noise_end)),
   (["signal-to-noise", "signal", "begin"], .num (.fin a.signal_begin)),
   (["signal-to-noise", "signal", "end"], .num (.fin a.signal_end)),
   (["signal-to-noise", "pad", "apply"], .bool a.pad_snr),
   (["signal-to-noise", "pad", "df"], .num (.fin a.df_snr))]

end Verif.Spec
