/-!
# Specification: the MIDI command section of RTP-MIDI (RFC 6295) and the MIDI messages in it

Independent of the model of the code.
-/
namespace Mdmi.Rtp

/-- A MIDI message: with data bytes, of one byte, or exclusive. -/
inductive Cmd
  | msg (status : Nat) (data : List Nat)
  | single (status : Nat)
  | sysex (data : List Nat)
  deriving DecidableEq, Repr

/-- Number of data bytes of a status byte. -/
def dataCount (status : Nat) : Nat :=
  if status / 16 = 0xC ∨ status / 16 = 0xD ∨ status = 0xF1 ∨ status = 0xF3 then 1
  else if status / 16 < 0xF ∨ status = 0xF2 then 2 else 0

/-- Well-formed messages. -/
def Cmd.Wf : Cmd → Prop
  | .msg status data => 0x80 ≤ status ∧ status ≤ 0xF3 ∧ status ≠ 0xF0 ∧ data.length = dataCount status ∧ ∀ b ∈ data, b < 128
  | .single status => status ∈ [0xF6, 0xF8, 0xFA, 0xFB, 0xFC, 0xFE, 0xFF]
  | .sysex data => ∀ b ∈ data, b < 128

/-- The bytes of a message with its status byte. -/
def Cmd.bytes : Cmd → List Nat
  | .msg status data => status :: data
  | .single status => [status]
  | .sysex data => 0xF0 :: data ++ [0xF7]

/-- A command of the list: the bytes of its delta time that have another behind them, and the last; the message; whether
its status byte is written out. -/
structure Item where
  cont : List Nat
  last : Nat
  cmd : Cmd
  explicit : Bool
  deriving DecidableEq, Repr

/-- Well-formed delta time and message. -/
def Item.Wf (x : Item) : Prop := (∀ b ∈ x.cont, 128 ≤ b ∧ b < 256) ∧ x.last < 128 ∧ x.cmd.Wf

/-- The message as written in the list. -/
def Item.body (x : Item) : List Nat :=
  match x.cmd, x.explicit with
  | .msg _ data, false => data
  | c, _ => c.bytes

/-- Delta time and message as written in the list. -/
def Item.bytes (x : Item) : List Nat := x.cont ++ x.last :: x.body

/-- Running status behind a message. -/
def after (running : Option Nat) : Cmd → Option Nat
  | .msg status _ => if status < 0xF0 then some status else none
  | .single status => if 0xF8 ≤ status then running else none
  | .sysex _ => none

/-- A status byte is left out only if it is the running status. -/
def Legal (running : Option Nat) : List Item → Prop
  | [] => True
  | x :: l => x.Wf ∧ (match x.cmd with
      | .msg status _ => x.explicit = true ∨ running = some status
      | _ => x.explicit = true) ∧ Legal (after running x.cmd) l

/-- The MIDI list: the first message has no delta time. -/
def midiList (first : Cmd) (l : List Item) : List Nat := first.bytes ++ l.flatMap Item.bytes

/-- The MIDI stream it stands for. -/
def stream (first : Cmd) (l : List Item) : List Nat := first.bytes ++ l.flatMap fun x => x.cmd.bytes

/-- First bytes of the command section for a list of `n` bytes, with any journal and phantom flags (`flags` is 0, 1, 4 or
5: J and P; Z, a delta time before the first command, is not set). -/
inductive Header (n : Nat) : List Nat → Prop
  | short (flags : Nat) (h : flags ∈ [0, 1, 4, 5]) (hn : n < 16) : Header n [flags * 16 + n]
  | long (flags : Nat) (h : flags ∈ [0, 1, 4, 5]) (hn : n < 4096) : Header n [128 + flags * 16 + n / 256, n % 256]

/-- Sequence number of a packet header. -/
def seqOf (head : List Nat) : Nat := head.getD 2 0 * 256 + head.getD 3 0

end Mdmi.Rtp
