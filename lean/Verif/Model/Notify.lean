import Verif.Model.Ui
/-!
# The driver's notifications

`parameterUpdatedCallback` of synth.c, which ui_fm.c registers: which calls lead to which notifications.
-/
namespace Mdmi
open Mdmi.Ui (Note)

/-- The calls of `channel_parameter_updated` and `other_parameter_updated` (synth.c:270-282) in an API call:
synth.c:130-268, 436-441.  `synth_init`, `synth_pitch`, `synth_volume` make none. -/
def Synth.notified (s : Synth.St) : Synth.Op → List (Nat × Note)
  | .totalLevel c op x => if ((s.ch c).ops.get op).totalLevel = x then [] else [(c, .channel)]
  | .stereo c _ | .algorithm c _ | .feedback c _ | .ams c _ | .fms c _ | .preset c _ => [(c, .channel)]
  | .multiple c _ _ | .detune c _ _ | .rateScaling c _ _ | .attackRate c _ _ | .sustainRate c _ _ => [(c, .channel)]
  | .releaseRate c _ _ | .ssgEg c _ _ | .sustainLevel c _ _ | .decayRate c _ _ | .am c _ _ => [(c, .channel)]
  | .enableLfo _ | .lfoFrequency _ => [(0, .lfo)]
  | .specialMode _ => [(0, .specialMode)]
  | _ => []

/-- The notifications of a call into midi_fm.c or midi_dac.c, or of a direct one into the driver. -/
def Fm.notified (env : Fm.Env) (s : Fm.St) : Fm.Op → List (Nat × Note)
  | .noteOn c p _ _ =>
    if p < 11 ∨ p > 106 then []
    else if (s.ch c).percussive then (if (env.perc[p]?).isSome then [(c, .channel)] else []) else []
  | .program c p =>
    if p < 128 then (if (s.user p).isSome ∨ (env.presets[p]?).isSome then [(c, .channel)] else []) else []
  | .pan c _ => if c < 6 then [(c, .channel)] else []
  | .synth o => Synth.notified s.synth o
  | _ => []

/-- The notifications of a sequence of calls, in order. -/
def Fm.told (env : Fm.Env) (s : Fm.St) : List Fm.Op → List (Nat × Note)
  | [] => []
  | o :: l => Fm.notified env s o ++ Fm.told env (Fm.step env s o) l

end Mdmi
