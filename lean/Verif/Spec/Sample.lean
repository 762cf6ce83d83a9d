import Verif.Model.Synth
/-! # Specification of sample playback -/
namespace Mdmi.Synth

/-- The sample the Z80 was last told to play (calls newest first); stopping it and loading a Z80 program end it.  A sample also
ends by itself, which the calls do not show. -/
def sample : List Ev → Option Nat
  | [] => none
  | .pcmStart p :: _ => some p
  | .pcmStop :: _ | .loadPcm :: _ | .loadNull :: _ => none
  | _ :: l => sample l

end Mdmi.Synth
