import Verif.Model.Ui
import Verif.Spec.Midi
/-! Specification of the display: where things stand on the screen and what they should read. -/
namespace Mdmi.UiSpec
open Mdmi.Ui (Text Screen)

/-- A text stands at a column and row. -/
def Reads (scr : Screen) (x y : Nat) (t : Text) : Prop := ∀ k, k < t.length → scr (x + k) y = t.getD k ' '

/-- `n` blank cells. -/
def blank (n : Nat) : Text := List.replicate n ' '

/-- Screen row of voice `i`. -/
def row (i : Nat) : Nat := 3 + 2 * i

/-- The name of a MIDI key: letter, sharp or dash, octave; middle C (60) is C4. -/
def keyName (n : Nat) : Text :=
  [['C', 'C', 'D', 'D', 'E', 'F', 'F', 'G', 'G', 'A', 'A', 'B'].getD (n % 12) '?',
   if n % 12 ∈ [1, 3, 6, 8, 10] then '#' else '-',
   Nat.digitChar (n / 12 - 1)]

/-- Two cells naming a MIDI channel (counted from one), right aligned. -/
def channelName (c : Nat) : Text :=
  if c + 1 < 10 then [' ', Nat.digitChar (c + 1)] else ['1', Nat.digitChar (c + 1 - 10)]

/-- Two hexadecimal digits. -/
def hexName (n : Nat) : Text := [(Nat.digitChar (n / 16)).toUpper, (Nat.digitChar (n % 16)).toUpper]

/-- Events as they occur: MIDI messages are well formed, the tick count is 16 bits wide. -/
def EvWf : Ui.Ev → Prop
  | .midi op _ => op.Wf
  | .frame f => f.ticks < 65536

/-- The engine calls of a history. -/
def calls : List Ui.Ev → List Midi.Op
  | [] => []
  | .midi op _ :: evs => op :: calls evs
  | .frame _ :: evs => calls evs

/-- Switching portamento on. -/
def portamentoOn : Midi.Op → Prop
  | .cc _ k v => k = 65 ∧ 64 ≤ v
  | _ => False

/-- Playing a key below 12. -/
def lowNote : Midi.Op → Prop
  | .noteOn _ p _ => p < 12
  | _ => False

/-- Histories without undefined behaviour in the engine (C05) and without portamento to low keys. -/
structure Ordinary (evs : List Ui.Ev) : Prop where
  wf : ∀ e ∈ evs, EvWf e
  engine : (∀ op ∈ calls evs, ¬op.enablesDac) ∨ ∀ op ∈ calls evs, ¬op.detunes
  glide : (∀ op ∈ calls evs, ¬portamentoOn op) ∨ ∀ op ∈ calls evs, ¬lowNote op

end Mdmi.UiSpec
