import Verif.Model.Rtp
/-!
# Model of `src/comm/applemidi.c`

Buffers as in `Model/Rtp`: the list of bytes from the pointer to the end of the object, `none` for an access beyond it.
Calls of `comm_megawifi_send` are returned as a list of channel and bytes.  The packed unions of applemidi.h are
big-endian on every target (`PACK_BIG_ENDIAN`), so fields are slices of the byte array.  Log messages are not modelled.
-/
namespace Mdmi.AppleMidi
open Mdmi.Rtp (be32 ssrc)

/-- `midi_pkt_result` as far as this file returns it, applemidi.h:5-13. -/
inductive Result
  | ok | invalidSignature | exchTooSmall | invalidTimesyncLength | unsupportedCommand
  deriving DecidableEq, Repr

/-- A call `comm_megawifi_send(ch, data, len)`. -/
abbrev Send := Nat × List Nat

/-- File-level variables, applemidi.c:8-16.  The send buffers hold the last packet built; they are copied by
`comm_megawifi_send` before they are used again and are not modelled. -/
structure St where
  lastSeqNum : Nat
  tsHi : Nat
  tsLo : Nat
  deriving DecidableEq, Repr

/-- The value of four bytes, most significant first. -/
def val32 (b : List Nat) : Nat := ((b.getD 0 0 * 256 + b.getD 1 0) * 256 + b.getD 2 0) * 256 + b.getD 3 0

/-- `unpack_invitation`, applemidi.c:39-55: the exchange packet, or the result that is not `MIDI_PKT_OK`. -/
def unpackInvitation (buffer : List Nat) (length : Nat) : Option (Result × List Nat) :=
  if length < 17 then some (.exchTooSmall, [])
  else if buffer.length < 32 then none
  else
    let invite := buffer.take 32
    if invite.getD 0 0 * 256 + invite.getD 1 0 ≠ 0xFFFF then some (.invalidSignature, invite) else some (.ok, invite)

/-- `pack_invitation_response`, applemidi.c:57-70, with the four bytes of `initToken`. -/
def packInvitationResponse (initToken : List Nat) : List Nat :=
  [0xFF, 0xFF, 0x4F, 0x4B] ++ be32 2 ++ initToken ++ be32 ssrc ++
    [0x4D, 0x65, 0x67, 0x61, 0x44, 0x72, 0x69, 0x76, 0x65, 0, 0, 0, 0, 0, 0, 0]

/-- `process_invitation`, applemidi.c:24-37, with `send_invite_response`, applemidi.c:72-77. -/
def processInvitation (ch : Nat) (buffer : List Nat) (length : Nat) : Option (Result × List Send) :=
  match unpackInvitation buffer length with
  | none => none
  | some (.ok, invite) => some (.ok, [(ch, packInvitationResponse ((invite.drop 8).take 4))])
  | some (r, _) => some (r, [])

/-- `process_timestamp_sync`, applemidi.c:112-133, with `unpack_timestamp_sync`, 79-94, `pack_timestamp_sync`, 96-103, and
`send_timestamp_sync`, 105-110. -/
def processTimestampSync (s : St) (buffer : List Nat) (length : Nat) : Option (Result × St × List Send) :=
  if length < 36 then some (.invalidTimesyncLength, s, [])
  else if buffer.length < 36 then none
  else
    let p := buffer.take 36
    if p.getD 0 0 * 256 + p.getD 1 0 ≠ 0xFFFF then some (.invalidSignature, s, [])
    else if p.getD 8 0 = 0 then
      let hi := val32 (p.drop 12)
      let lo := (val32 (p.drop 16) + 10) % 2 ^ 32
      let reply := p.take 4 ++ be32 ssrc ++ [1] ++ (p.drop 9).take 11 ++ be32 hi ++ be32 lo ++ p.drop 28
      some (.ok, { s with tsHi := hi, tsLo := lo }, [(2, reply)])
    else some (.ok, s, [])

/-- `has_apple_midi_signature`, applemidi.c:135-141, and again comm_megawifi.c:86-92. -/
def hasSignature (buffer : List Nat) (length : Nat) : Option Bool :=
  if length < 2 then some false
  else match buffer with
    | [] => none
    | a :: r => if a ≠ 0xFF then some false else r.head?.map (· == 0xFF)

/-- `applemidi_processSessionControlPacket`, applemidi.c:163-187, with the command tests 143-161: the result, whether
`*event` is the end of the session, and the packets sent. -/
def processControl (buffer : List Nat) (length : Nat) : Option (Result × Bool × List Send) :=
  match hasSignature buffer length with
  | none => none
  | some false => some (.invalidSignature, false, [])
  | some true =>
    match buffer[2]?, buffer[3]? with
    | some a, some b =>
      if a = 0x49 ∧ b = 0x4E then (processInvitation 1 buffer length).map fun x => (x.1, false, x.2)
      else if a = 0x52 ∧ b = 0x53 then some (.ok, false, [])
      else if a = 0x42 ∧ b = 0x59 then some (.ok, true, [])
      else some (.unsupportedCommand, false, [])
    | _, _ => none

/-- `applemidi_processSessionMidiPacket`, applemidi.c:189-203. -/
def processMidi (s : St) (buffer : List Nat) (length : Nat) : Option (Result × St × List Send) :=
  match hasSignature buffer length with
  | none => none
  | some false => some (.invalidSignature, s, [])
  | some true =>
    match buffer[2]?, buffer[3]? with
    | some a, some b =>
      if a = 0x49 ∧ b = 0x4E then (processInvitation 2 buffer length).map fun x => (x.1, s, x.2)
      else if a = 0x43 ∧ b = 0x4B then processTimestampSync s buffer length
      else some (.unsupportedCommand, s, [])
    | _, _ => none

/-- The packet of `applemidi_sendReceiverFeedback`, applemidi.c:215-223. -/
def receiverFeedback (s : St) : Send :=
  (1, [0xFF, 0xFF, 0x52, 0x53] ++ be32 ssrc ++ [s.lastSeqNum / 256 % 256, s.lastSeqNum % 256, 0, 0])

end Mdmi.AppleMidi
