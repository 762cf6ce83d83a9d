import Verif.Spec.Midi
/-!
# What a history of messages makes of the settings of a MIDI channel
-/
namespace Mdmi.Midi

/-- Volume, pan and program of a MIDI channel. -/
structure Settings where
  volume : Nat
  pan : Nat
  program : Nat
  deriving DecidableEq

/-- Full volume, pan in the middle, program 0. -/
def Settings.initial : Settings := ⟨127, 64, 0⟩

/-- What one message makes of the settings of MIDI channel `c`. -/
def Settings.after (c : Nat) (x : Settings) : Op → Settings
  | .cc k n v =>
    if k = c then
      if n = 7 then { x with volume := v } else if n = 10 then { x with pan := v } else if n = 121 then .initial else x
    else x
  | .program k p => if k = c then { x with program := p } else x
  | .sysex d _ => if d.take 4 = [0x7E, 0x7F, 0x09, 0x01] then .initial else x
  | .reset => .initial
  | _ => x

/-- The settings of MIDI channel `c` after a history: its last volume, pan and program messages since it was reset. -/
def settingsOf (c : Nat) (ops : List Op) : Settings := ops.foldl (Settings.after c) .initial

/-- Calls that move voices to other MIDI channels without updating them: remapping, and changes of the mapping mode. -/
def Op.rewires : Op → Prop
  | .remap _ _ => True
  | .cc _ k _ => k = 84
  | .sysex d _ => d.take 4 = [0, 0x22, 0x77, 0] ∨ d.take 4 = [0, 0x22, 0x77, 3]
  | _ => False

end Mdmi.Midi
