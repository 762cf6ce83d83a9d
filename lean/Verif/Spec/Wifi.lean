import Verif.Model.MegaWifi
/-!
# What the trace of the network driver should look like

Everything here is computed from the events alone, newest first.  A datagram that crosses the border to the radio has a
header of six bytes (four of address, two of port) in front of its contents.
-/
namespace Mdmi.Wifi

/-- What the single transmit slot holds: nothing, a packet not yet handed to the radio, or the bytes the radio is
sending. -/
inductive Slot
  | free
  | held (ch : Nat) (data : List Nat)
  | flying (ch : Nat) (bytes : List Nat)
  deriving DecidableEq, Repr

/-- A packet is taken only into a free slot and only if it fits a buffer of 1460 bytes with its header; it leaves the
slot when the radio has sent or refused it. -/
def slot : List Event → Slot
  | [] => .free
  | .submit ch d :: t =>
    match slot t with
    | .free => if d.length ≤ 1454 then .held ch d else .free
    | x => x
  | .send ch b ok :: _ => if ok then .flying ch b else .free
  | .sendDone :: _ => .free
  | _ :: t => slot t

/-- Packets taken into the slot, oldest first. -/
def accepted : List Event → List (Nat × List Nat)
  | [] => []
  | .submit ch d :: t => accepted t ++ (if slot t = .free ∧ d.length ≤ 1454 then [(ch, d)] else [])
  | _ :: t => accepted t

/-- Packets handed to the radio, without their header, oldest first. -/
def handed : List Event → List (Nat × List Nat)
  | [] => []
  | .send ch b _ :: t => handed t ++ [(ch, b.drop 6)]
  | _ :: t => handed t

/-- The packet that waits in the slot. -/
def Slot.waiting : Slot → List (Nat × List Nat)
  | .held ch d => [(ch, d)]
  | _ => []

/-- The radio is sending. -/
def Slot.flies : Slot → Bool
  | .flying _ _ => true
  | _ => false

/-- The radio is given a packet only while it is not sending another one. -/
def OneAtATime : List Event → Prop
  | [] => True
  | .send ch b _ :: t => (∃ d, slot t = .held ch d ∧ b.length = d.length + 6 ∧ b.drop 6 = d) ∧ OneAtATime t
  | _ :: t => OneAtATime t

/-- A receive of the radio is outstanding. -/
def armed : List Event → Bool
  | [] => false
  | .arm true :: _ => true
  | .recv _ _ :: _ => false
  | .recvFailed :: _ => false
  | _ :: t => armed t

/-- The datagram received and not yet processed. -/
def inbox : List Event → Option (Nat × List Nat)
  | [] => none
  | .recv ch b :: _ => some (ch, b)
  | .process _ _ :: _ => none
  | _ :: t => inbox t

/-- Contents of the datagrams received, oldest first. -/
def received : List Event → List (Nat × List Nat)
  | [] => []
  | .recv ch b :: t => received t ++ [(ch, b.drop 6)]
  | _ :: t => received t

/-- Contents of the datagrams processed, oldest first. -/
def processed : List Event → List (Nat × List Nat)
  | [] => []
  | .process ch d :: t => processed t ++ [(ch, d)]
  | _ :: t => processed t

/-- What the radio may do: it completes a send it was given, and completes or fails a receive it was asked for, with a
header and not more bytes than the buffer has. -/
def Legal (t : List Event) : Op → Prop
  | .sendDone => (slot t).flies = true
  | .recv ch b => armed t = true ∧ ch < 256 ∧ 6 ≤ b.length ∧ b.length ≤ 1460 ∧ ∀ x ∈ b, x < 256
  | .recvFailed => armed t = true
  | .write d => d.length < 65536 ∧ ∀ x ∈ d, x < 256
  | .vsync d => d < 65536
  | _ => True

/-- States after a history in which the radio behaves. -/
inductive Reached : St → Prop
  | boot (listening : Bool) : Reached (boot listening)
  | step {s : St} (h : Reached s) (op : Op) (hl : Legal s.out op) : Reached (step s op)

instance (t : List Event) (op : Op) : Decidable (Legal t op) := by
  cases op <;> unfold Legal <;> infer_instance

/-- A history in which the radio behaves. -/
def LegalRun (s : St) : List Op → Prop
  | [] => True
  | op :: ops => Legal s.out op ∧ LegalRun (Wifi.step s op) ops

instance decLegalRun : (s : St) → (ops : List Op) → Decidable (LegalRun s ops)
  | _, [] => isTrue trivial
  | s, op :: ops => @instDecidableAnd _ _ _ (decLegalRun (Wifi.step s op) ops)

/-- The sender of the last datagram: address, control port and MIDI port (the MIDI port is the one above the control
port); nothing after a session end (`FF FF 'B' 'Y'` on the control port) and before the first datagram. -/
def remote : List Event → Nat × Nat × Nat
  | [] => (0, 0, 0)
  | .recv ch b :: t =>
    let ip := ((b.getD 0 0 * 256 + b.getD 1 0) * 256 + b.getD 2 0) * 256 + b.getD 3 0
    let port := b.getD 4 0 * 256 + b.getD 5 0
    if ch = 1 then (ip, port, (port + 1) % 65536)
    else if ch = 2 then (ip, (port + 65535) % 65536, port)
    else (ip, (remote t).2)
  | .process ch d :: t => if ch = 1 ∧ d.take 4 = [0xFF, 0xFF, 0x42, 0x59] then (0, 0, 0) else remote t
  | _ :: t => remote t

/-- The header for a packet on a channel. -/
def headerFor (r : Nat × Nat × Nat) (ch : Nat) : List Nat :=
  let port := if ch = 1 then r.2.1 else r.2.2
  [r.1 / 2 ^ 24, r.1 / 2 ^ 16 % 256, r.1 / 2 ^ 8 % 256, r.1 % 256, port / 256, port % 256]

/-- Every packet handed to the radio is addressed to the sender of the last datagram. -/
def Aimed : List Event → Prop
  | [] => True
  | .send ch b _ :: t => b.take 6 = headerFor (remote t) ch ∧ Aimed t
  | _ :: t => Aimed t

instance decAimed : (t : List Event) → Decidable (Aimed t)
  | [] => isTrue trivial
  | .send _ _ _ :: t => @instDecidableAnd _ _ _ (decAimed t)
  | .submit _ _ :: t => decAimed t
  | .sendDone :: t => decAimed t
  | .arm _ :: t => decAimed t
  | .recv _ _ :: t => decAimed t
  | .recvFailed :: t => decAimed t
  | .process _ _ :: t => decAimed t

/-- An RTP-MIDI packet whose list has up to 255 bytes and lies within the packet: twelve bytes of header, then the length
of the list, in the low four bits of a byte below 128 or in twelve bits of two bytes. -/
def rtpOk (d : List Nat) : Prop :=
  13 ≤ d.length ∧ (d.getD 12 0 < 128 → 13 + d.getD 12 0 % 16 ≤ d.length) ∧
    (128 ≤ d.getD 12 0 → d.getD 12 0 % 16 = 0 ∧ 14 + d.getD 13 0 ≤ d.length)

instance (d : List Nat) : Decidable (rtpOk d) := by unfold rtpOk; infer_instance

/-- Sequence number of the last such packet on the MIDI port, 0 before the first. -/
def lastSeq : List Event → Nat
  | [] => 0
  | .process ch d :: t =>
    if ch = 2 ∧ d.take 2 ≠ [0xFF, 0xFF] ∧ rtpOk d then d.getD 2 0 * 256 + d.getD 3 0 else lastSeq t
  | _ :: t => lastSeq t

/-- Receiver feedback for a sequence number. -/
def feedbackPacket (seq : Nat) : List Nat :=
  [0xFF, 0xFF, 0x52, 0x53, 0x9E, 0x91, 0x51, 0x50, seq / 256, seq % 256, 0, 0]

/-- Every receiver feedback carries the sequence number of the last packet. -/
def Acks : List Event → Prop
  | [] => True
  | .submit ch d :: t => (ch = 1 → d.take 4 = [0xFF, 0xFF, 0x52, 0x53] → d = feedbackPacket (lastSeq t)) ∧ Acks t
  | _ :: t => Acks t

end Mdmi.Wifi
