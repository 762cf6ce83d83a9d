/-!
# Model of `src/comm/rtpmidi.c`

A buffer is the list of bytes from the pointer the function is given to the end of the object it points into; the
length of the packet in it is passed separately, as in C.  A read or write beyond the list is undefined behaviour and
the distinct outcome `none`.  Log messages are not modelled.
-/
namespace Mdmi.Rtp

/-- `midi_pkt_result` as far as this file returns it, src/comm/applemidi.h:5-13. -/
inductive Result
  | ok | headerTooShort | lengthMismatch
  deriving DecidableEq, Repr

/-- `is_long_header`, rtpmidi.c:25-28, for the first byte of the command section. -/
def isLongHeader (b0 : Nat) : Bool := b0 / 128 ≠ 0

/-- `four_bit_midi_length`, rtpmidi.c:30-33. -/
def fourBitLength (b0 : Nat) : Nat := b0 % 16

/-- `twelve_bit_midi_length`, rtpmidi.c:35-38: `int` arithmetic, result `u16`. -/
def twelveBitLength (b0 b1 : Nat) : Nat := (b0 * 4096 + b1) % 65536

/-- `bytes_to_emit`, rtpmidi.c:40-48. -/
def bytesToEmit (status : Nat) : Nat :=
  if status / 16 = 0xC ∨ status / 16 = 0xD ∨ status = 0xF1 ∨ status = 0xF3 then 1 else 2

/-- `emit_midi_event`, rtpmidi.c:50-60, with the cursor as the bytes from it on: bytes emitted, and the cursor left on
the last byte emitted. -/
def emitMidiEvent (status : Nat) (cursor : List Nat) : Option (List Nat × List Nat) :=
  match cursor with
  | [] => none
  | a :: r =>
    if bytesToEmit status = 1 then some ([status, a], a :: r)
    else match r with
      | [] => none
      | b :: r' => some ([status, a, b], b :: r')

/-- The loops of `process_sysex` and `process_middle_sysex` after their first byte, rtpmidi.c:64-67 and 75-77: bytes
passed, and the cursor on the byte that ends the loop. -/
def untilMark : List Nat → Option (List Nat × List Nat)
  | [] => none
  | b :: r => if b = 0xF7 ∨ b = 0xF0 then some ([], b :: r) else (untilMark r).map fun x => (b :: x.1, x.2)

/-- `process_sysex`, rtpmidi.c:62-69. -/
def processSysex (cursor : List Nat) : Option (List Nat × List Nat) :=
  match cursor with
  | [] => none
  | b :: r => (untilMark r).map fun x => (b :: x.1 ++ [0xF7], x.2)

/-- `process_middle_sysex`, rtpmidi.c:71-78: nothing is emitted. -/
def processMiddleSysex (cursor : List Nat) : Option (List Nat) :=
  match cursor with
  | [] => none
  | _ :: r => (untilMark r).map (·.2)

/-- The loop of `rtpmidi_processRtpMidiPacket`, rtpmidi.c:117-137: the bytes emitted.  `past` is the number of bytes of
the object behind `midiEnd`, so that `cursor <= midiEnd` is `past < cursor.length`.  Every turn moves the cursor, so
`fuel = cursor.length` turns are enough. -/
def loop : (fuel past status : Nat) → (walking : Bool) → (cursor : List Nat) → Option (List Nat)
  | 0, _, _, _, _ => some []
  | fuel + 1, past, status, walking, cursor =>
    if cursor.length ≤ past then some []
    else match cursor with
      | [] => none
      | b :: r =>
        if walking ∧ b / 128 = 0 then loop fuel past status false r
        else if b = 0xF0 then
          match processSysex (b :: r) with
          | none => none
          | some (e, c) => (loop fuel past status true (c.drop 1)).map (e ++ ·)
        else if b = 0xF7 then
          match processMiddleSysex (b :: r) with
          | none => none
          | some c => loop fuel past status true (c.drop 1)
        else if b = 0xFF then (loop fuel past status true r).map (b :: ·)
        else if b / 128 ≠ 0 then loop fuel past b walking r
        else
          match emitMidiEvent status (b :: r) with
          | none => none
          | some (e, c) => (loop fuel past status true (c.drop 1)).map (e ++ ·)

/-- `rtpmidi_processRtpMidiPacket`, rtpmidi.c:90-141: the result, the bytes passed to `comm_megawifi_midiEmitCallback`
and the argument of `applemidi_updateLastSeqNum` if it is called. -/
def process (buffer : List Nat) (length : Nat) : Option (Result × List Nat × Option Nat) :=
  if length < 12 + 1 then some (.headerTooShort, [], none)
  else match buffer[2]?, buffer[3]?, buffer.drop 12 with
    | some s1, some s0, b0 :: r =>
      let seqNum := (s1 * 256 + s0) % 65536
      let long := isLongHeader b0
      match (if long then r.head?.map (twelveBitLength b0 ·) else some (fourBitLength b0)) with
      | none => none
      | some midiLength =>
        let headerLen := 12 + if long then 2 else 1
        if headerLen + midiLength > length then some (.lengthMismatch, [], none)
        else
          let midiStart := if long then r.drop 1 else r
          (loop midiStart.length (midiStart.length - midiLength) 0 false midiStart).map fun e => (.ok, e, some seqNum)
    | _, _, _ => none

/-- Store of consecutive bytes into an object, `none` if they do not fit. -/
def store (buffer : List Nat) (offset : Nat) (bytes : List Nat) : Option (List Nat) :=
  if offset + bytes.length ≤ buffer.length then
    some (buffer.take offset ++ bytes ++ buffer.drop (offset + bytes.length))
  else none

/-- The bytes of a `u32`, most significant first. -/
def be32 (n : Nat) : List Nat := [n / 2 ^ 24 % 256, n / 2 ^ 16 % 256, n / 2 ^ 8 % 256, n % 256]

/-- `MEGADRIVE_SSRC`, src/comm/applemidi.h:20. -/
def ssrc : Nat := 0x9E915150

/-- `rtpmidi_packRtpMidiPacket`, rtpmidi.c:143-215, with `sendSeqNum` and the low half of the local timestamp as
arguments: the result, the buffer and the new `sendSeqNum`.  `midiData` is `none` for the null pointer; reading beyond
the object it points to is undefined. -/
def pack (sendSeqNum timestampLo : Nat) (midiData : Option (List Nat)) (midiDataLength : Nat) (buffer : List Nat)
    (bufferLength : Nat) : Option (Nat × List Nat × Nat) :=
  if midiDataLength > 0 ∧ midiData = none then some (0, buffer, sendSeqNum)
  else if midiDataLength > 0x0FFF then some (0, buffer, sendSeqNum)
  else
    match store buffer 0 ([0x80, 0x61, sendSeqNum / 256 % 256, sendSeqNum % 256] ++ be32 timestampLo ++ be32 ssrc) with
    | none => none
    | some buffer =>
      let useLongHeader : Bool := midiDataLength > 0x0F
      let commandHeaderLength := if useLongHeader then 2 else 1
      let packedLength := (12 + commandHeaderLength + midiDataLength) % 65536
      if packedLength > bufferLength then some (0, buffer, sendSeqNum)
      else
        match store buffer 12 (if useLongHeader then [0x80 ||| midiDataLength / 256 % 256, midiDataLength % 256]
            else [midiDataLength % 16]) with
        | none => none
        | some buffer =>
          match (if midiDataLength > 0 then
              match midiData with
              | none => none
              | some d => if d.length < midiDataLength then none
                else store buffer (12 + commandHeaderLength) (d.take midiDataLength)
            else some buffer) with
          | none => none
          | some buffer => some (packedLength, buffer, (sendSeqNum + 1) % 65536)

end Mdmi.Rtp
