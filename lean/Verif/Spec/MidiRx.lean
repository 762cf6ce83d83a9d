import Verif.Model.MidiRx
/-!
# Specification of the MIDI byte stream (MIDI 1.0 messages with explicit status byte)
-/
namespace Mdmi.Rx

/-- MIDI messages the interface supports. -/
inductive Message where
  | noteOff (c pitch velocity : Nat)
  | noteOn (c pitch velocity : Nat)
  | controlChange (c controller value : Nat)
  | programChange (c program : Nat)
  | pitchBend (c value : Nat)
  | songPosition (beats : Nat)
  | clock | start | continue | stop
  | sysex (payload : List Nat)
  | systemReset

/-- The bytes of a message. -/
def Message.bytes : Message → List Nat
  | .noteOff c p v => [0x80 + c, p, v]
  | .noteOn c p v => [0x90 + c, p, v]
  | .controlChange c k v => [0xB0 + c, k, v]
  | .programChange c p => [0xC0 + c, p]
  | .pitchBend c v => [0xE0 + c, v % 128, v / 128]
  | .songPosition n => [0xF2, n % 128, n / 128]
  | .clock => [0xF8]
  | .start => [0xFA]
  | .continue => [0xFB]
  | .stop => [0xFC]
  | .sysex d => 0xF0 :: d ++ [0xF7]
  | .systemReset => [0xFF]

/-- Channels below 16, 7-bit data, 14-bit values, at most 255 payload bytes. -/
def Message.Ok : Message → Prop
  | .noteOff c p v | .noteOn c p v | .controlChange c p v => c < 16 ∧ p < 128 ∧ v < 128
  | .programChange c p => c < 16 ∧ p < 128
  | .pitchBend c v => c < 16 ∧ v < 16384
  | .songPosition n => n < 16384
  | .clock | .start | .continue | .stop | .systemReset => True
  | .sysex d => (∀ b ∈ d, b < 128) ∧ d.length ≤ 255

/-- What a message asks of the engine. -/
def Message.call : Message → Call
  | .noteOff c p _ => .noteOff c p
  | .noteOn c p v => .noteOn c p v
  | .controlChange c k v => .cc c k v
  | .programChange c p => .program c p
  | .pitchBend c v => .bend c v
  | .songPosition _ | .clock | .start | .continue | .stop => .nothing
  | .sysex d => .sysex d
  | .systemReset => .reset

/-- Bytes that begin no supported message and are no system real-time message: data bytes, poly and channel
aftertouch, and the other system bytes. -/
def Stray (b : Nat) : Prop :=
  b < 0x80 ∨ (0xA0 ≤ b ∧ b < 0xB0) ∨ (0xD0 ≤ b ∧ b < 0xE0) ∨ b ∈ [0xF1, 0xF3, 0xF4, 0xF5, 0xF6, 0xF7, 0xF9, 0xFD, 0xFE]

/-- A piece of a byte stream: a message or a stray byte. -/
inductive Piece where
  | message (m : Message)
  | stray (b : Nat)

def Piece.bytes : Piece → List Nat
  | .message m => m.bytes
  | .stray b => [b]

def Piece.Ok : Piece → Prop
  | .message m => m.Ok
  | .stray b => Stray b

def Piece.call : Piece → Call
  | .message m => m.call
  | .stray b => .warn b

/-- The calls a piece makes into the engine; `junk` is the byte after a payload. -/
def Piece.ops (junk : Nat) : Piece → List Midi.Op
  | .message (.noteOff c p _) => [.noteOff c p]
  | .message (.noteOn c p v) => [.noteOn c p v]
  | .message (.controlChange c k v) => [.cc c k v]
  | .message (.programChange c p) => [.program c p]
  | .message (.pitchBend c v) => [.bend c v]
  | .message (.sysex d) => [.sysex d junk]
  | .message .systemReset => [.reset]
  | _ => []

/-- The calls a stream makes into the engine. -/
def streamOps (junk : Nat → Nat → Nat) : List Piece → List Midi.Op
  | [] => []
  | x :: l => x.ops (junk 0 0) ++ streamOps (fun n => junk (n + 1)) l

/-- Pieces without effect: stray bytes, song position, clock, start, continue, stop. -/
def Piece.Idle (x : Piece) : Prop := x.ops 0 = []

end Mdmi.Rx
