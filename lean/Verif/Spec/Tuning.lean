import Verif.Spec.Midi
/-!
# What a history of messages makes of the tuning of a MIDI channel
-/
namespace Mdmi.Midi

/-- Bend, bend range (semitones and cents), fine tune, the selected registered parameter (RPN), and whether the
controllers beyond General MIDI are switched off. -/
structure Tuning where
  bend : Nat
  semitones : Nat
  cents : Nat
  fine : Int
  rpnMsb : Nat
  rpnLsb : Nat
  gmOnly : Bool
  deriving DecidableEq

/-- Bend in the middle, a range of two semitones, no fine tune, no parameter selected. -/
def Tuning.initial : Tuning := ⟨0x2000, 2, 0, 0, 127, 127, false⟩

/-- What one message makes of the tuning of MIDI channel `c`. -/
def Tuning.after (c : Nat) (x : Tuning) : Op → Tuning
  | .bend k b => if k = c then { x with bend := b } else x
  | .cc k n v =>
    if k = c then
      if n = 101 then { x with rpnMsb := v }
      else if n = 100 then { x with rpnLsb := v }
      else if n = 6 ∧ x.rpnMsb = 0 ∧ x.rpnLsb = 0 then { x with semitones := v }
      else if n = 38 ∧ x.rpnMsb = 0 ∧ x.rpnLsb = 0 then { x with cents := v }
      else if n = 85 ∧ x.gmOnly = false then { x with fine := v - 64 }
      else if n = 121 then { Tuning.initial with gmOnly := x.gmOnly }
      else x
    else x
  | .sysex d _ =>
    if d.take 4 = [0x7E, 0x7F, 0x09, 0x01] then { Tuning.initial with gmOnly := x.gmOnly }
    else if d.take 4 = [0x00, 0x22, 0x77, 0x04] ∧ d.length = 5 then { x with gmOnly := decide (d.getD 4 0 = 0) }
    else x
  | .reset => .initial
  | _ => x

/-- The tuning of MIDI channel `c` after a history of messages. -/
def tuningOf (c : Nat) (ops : List Op) : Tuning := ops.foldl (Tuning.after c) .initial

end Mdmi.Midi
