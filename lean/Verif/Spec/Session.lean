import Verif.Model.Session
import Verif.Spec.MidiRx
import Verif.Spec.Midi
/-! # Specification of a session: bytes over time -/
namespace Mdmi.Session
open Mdmi Rx

/-- The bytes that arrive in a session. -/
def arrived : List Event → List Nat
  | [] => []
  | .bytes bs :: es => bs ++ arrived es
  | .frame :: es => arrived es

/-- Frames in a session. -/
def frames (es : List Event) : Nat := es.countP fun e => match e with | .frame => true | _ => false

/-- The calls of a frame. -/
def isTick : Midi.Op → Bool
  | .tick | .psgTick => true
  | _ => false

/-- The engine call of a message as the receiver understands it, the byte `j` behind an exclusive payload. -/
def Call.ops (j : Nat) : Call → List Midi.Op
  | .noteOn c p v => [.noteOn c p v]
  | .noteOff c p => [.noteOff c p]
  | .cc c k v => [.cc c k v]
  | .bend c b => [.bend c b]
  | .program c p => [.program c p]
  | .sysex d => [.sysex d j]
  | .reset => [.reset]
  | .warn _ | .nothing => []

/-- The engine calls of consecutive messages, `junk n` behind the payload of message `n`. -/
def callOps (junk : Nat → Nat) : List Call → List Midi.Op
  | [] => []
  | c :: cs => Call.ops (junk 0) c ++ callOps (fun n => junk (n + 1)) cs

/-- The same for received messages: a reset runs the messages `start` of the startup sequence. -/
def heardOps (start : List Call) (junk : Nat → Nat → Nat) : List Call → List Midi.Op
  | [] => []
  | c :: cs => (if c = .reset then .reset :: callOps (junk 0) start else Call.ops (junk 0 0) c) ++
      heardOps start (fun n => junk (n + 1)) cs

/-- The calls of a startup sequence of messages. -/
def startOps (junk : Nat → Nat) : List Piece → List Midi.Op
  | [] => []
  | x :: l => x.ops (junk 0) ++ startOps (fun n => junk (n + 1)) l

/-- What a stream of messages asks of the engine: its calls in order; a system reset runs the startup sequence `start`
again. -/
def asked (start : List Piece) (junk : Nat → Nat → Nat) : List Piece → List Midi.Op
  | [] => []
  | .message .systemReset :: l => .reset :: startOps (junk 0) start ++ asked start (fun n => junk (n + 1)) l
  | x :: l => x.ops (junk 0 0) ++ asked start (fun n => junk (n + 1)) l

/-- Messages with data bytes the code can cope with, though they may be no MIDI: velocity, program, the values of
portamento time, volume and store program below 128, and the program of an exclusive message that stores or clears a
preset; where samples play, also the pitch of a note. -/
def Safe (samples : Bool) : Call → Prop
  | .noteOn _ p v => v < 128 ∧ (samples = true → p < 128)
  | .cc _ k v => k = 5 ∨ k = 7 ∨ k = 87 → v < 128
  | .program _ p => p < 128
  | .sysex d => ∀ n rest, d = [0x00, 0x22, 0x77, 0x0A, 0, n] ++ rest ∧ rest.length = 48 ∨
      d = [0x00, 0x22, 0x77, 0x0B, 0, n] → n < 128
  | .noteOff _ _ | .bend _ _ | .reset | .warn _ | .nothing => True

/-- No sample playback (`samples = false`), or no bend and fine tune away from the centre: see `Midi.Reached`. -/
def Apart (samples : Bool) : Call → Prop
  | .cc _ k v => if samples then k = 85 → v = 64 else k = 78 → v < 64
  | .bend _ b => samples = true → b = 0x2000
  | _ => True

end Mdmi.Session
