import Verif.Model.AppleMidi
import Verif.Model.RingBuf
/-!
# Model of `src/comm/comm_megawifi.c`

The radio library (`mw_process`, `mw_udp_reuse_send`, `mw_udp_reuse_recv`) is outside the repository.  Its callbacks are
operations of the history (`sendDone`, `recv`, `recvFailed`), the results of its two calls are arguments of `tick`.  In
the code callbacks only run inside the `mw_process` at the start of a tick (line 340; the idle task of lines 148-153 runs only
while `init_mega_wifi` waits, before `listening` is set); the model allows them anywhere between two calls.  The start-up
conversation with the radio (lines 94-195) is reduced to its result, the flag `listening`.  Log messages are not
modelled.  A read beyond a buffer sets the sticky `fault`.
-/
namespace Mdmi.Wifi
open Mdmi

/-- `rx_state`, comm_megawifi.c:33. -/
inductive RxState | idle | armed | buffered
  deriving DecidableEq, Repr

/-- `tx_state`, comm_megawifi.c:34. -/
inductive TxState | idle | queued | inflight
  deriving DecidableEq, Repr

/-- What happens at the border to the rest of the firmware and to the radio library: a call of `comm_megawifi_send`, a
call of `mw_udp_reuse_send` with the bytes handed over and whether it was accepted, the completion of a send, a call of
`mw_udp_reuse_recv` and whether it was accepted, the completion of a receive with the bytes written by the radio, a
failed receive, and a call of `process_udp_data` with the bytes of the datagram. -/
inductive Event
  | submit (ch : Nat) (data : List Nat)
  | send (ch : Nat) (bytes : List Nat) (ok : Bool)
  | sendDone
  | arm (ok : Bool)
  | recv (ch : Nat) (bytes : List Nat)
  | recvFailed
  | process (ch : Nat) (data : List Nat)
  deriving DecidableEq, Repr

/-- `MW_RX_TX_BUFFER_SIZE`, comm_megawifi.h:4. -/
def bufSize : Nat := 1460

/-- `REUSE_PAYLOAD_HEADER_LEN`, comm_megawifi.c:14. -/
def headerLen : Nat := 6

/-- File-level variables, comm_megawifi.c:20-45, with those of applemidi.c and rtpmidi.c:18. -/
structure St where
  rxState : RxState
  rxCh : Nat
  rxLen : Int
  rxBuf : List Nat
  txState : TxState
  txCh : Nat
  txLen : Nat
  txBuf : List Nat
  ring : Ring.RingBuf
  recvData : Bool
  listening : Bool
  connected : Bool
  frame : Nat
  lastSeqNum : Nat
  remoteIp : Nat
  remoteControlPort : Nat
  remoteMidiPort : Nat
  am : AppleMidi.St
  sendSeqNum : Nat
  out : List Event
  fault : Bool
  deriving DecidableEq, Repr

/-- `comm_megawifi_init`, comm_megawifi.c:51-84, with `rtpmidi_init`, rtpmidi.c:20-23; `listening` is the outcome of
`init_mega_wifi`, 160-195. -/
def boot (listening : Bool) : St where
  rxState := .idle
  rxCh := 0
  rxLen := 0
  rxBuf := List.replicate bufSize 0
  txState := .idle
  txCh := 0
  txLen := 0
  txBuf := List.replicate bufSize 0
  ring := Ring.init Ring.zeroed (some (List.replicate bufSize 0)) bufSize
  recvData := false
  listening := listening
  connected := false
  frame := 0
  lastSeqNum := 0
  remoteIp := 0
  remoteControlPort := 0
  remoteMidiPort := 0
  am := ⟨0, 0, 0⟩
  sendSeqNum := 1
  out := []
  fault := false

/-- Record an event. -/
def log (s : St) (e : Event) : St := { s with out := e :: s.out }

/-- `comm_megawifi_send`, comm_megawifi.c:422-438; `data` are the `len` bytes at the pointer. -/
def send (s : St) (ch : Nat) (data : List Nat) : St :=
  let s := log s (.submit ch data)
  if s.txState ≠ .idle then s
  else if data.length + headerLen > bufSize then s
  else { s with
    txState := .queued, txCh := ch, txLen := data.length
    txBuf := s.txBuf.take headerLen ++ data ++ s.txBuf.drop (headerLen + data.length) }

/-- The calls of `comm_megawifi_send` made by applemidi.c. -/
def sendAll (s : St) (l : List AppleMidi.Send) : St := l.foldl (fun s p => send s p.1 p.2) s

/-- `comm_megawifi_midiEmitCallback`, comm_megawifi.c:366-373: a byte that does not fit the ring is dropped. -/
def emit (s : St) (data : Nat) : St :=
  match Ring.write s.ring data with
  | none => { s with recvData := true, fault := true }
  | some (_, ring) => { s with recvData := true, ring := ring }

/-- `reset_remote_endpoint`, comm_megawifi.c:273-279. -/
def resetRemote (s : St) : St :=
  { s with remoteIp := 0, remoteControlPort := 0, remoteMidiPort := 0, connected := false }

/-- `persist_remote_endpoint`, comm_megawifi.c:261-271; ports are `u16`. -/
def persistRemote (s : St) (ch ip port : Nat) : St :=
  let s := { s with remoteIp := ip }
  if ch = 1 then { s with remoteControlPort := port, remoteMidiPort := (port + 1) % 65536 }
  else if ch = 2 then { s with remoteControlPort := (port + 65535) % 65536, remoteMidiPort := port }
  else s

/-- `process_udp_data`, comm_megawifi.c:239-259, for the bytes from `buffer` to the end of `rxBuffer`. -/
def processUdp (s : St) (ch : Nat) (buffer : List Nat) (length : Nat) : St :=
  let s := log s (.process ch (buffer.take length))
  if ch = 1 then
    match AppleMidi.processControl buffer length with
    | none => { s with fault := true }
    | some (_, ended, sends) =>
      let s := sendAll s sends
      if ended then resetRemote s else s
  else if ch = 2 then
    match AppleMidi.hasSignature buffer length with
    | none => { s with fault := true }
    | some true =>
      match AppleMidi.processMidi s.am buffer length with
      | none => { s with fault := true }
      | some (_, am, sends) => sendAll { s with am := am } sends
    | some false =>
      match Rtp.process buffer length with
      | none => { s with fault := true }
      | some (_, bytes, seq) =>
        let s := bytes.foldl emit s
        match seq with
        | none => s
        | some n => { s with am := { s.am with lastSeqNum := n } }
  else s

/-- The value of two bytes, most significant first. -/
def val16 (b : List Nat) : Nat := b.getD 0 0 * 256 + b.getD 1 0

/-- `recv_complete_cb` with `LSD_STAT_COMPLETE`, comm_megawifi.c:287-305, after the radio has written `bytes` to
`rxBuffer`.  The header `struct mw_reuse_payload` is four bytes of address and two of port; the target is big-endian. -/
def recv (s : St) (ch : Nat) (bytes : List Nat) : St :=
  let s := log { s with rxBuf := bytes ++ s.rxBuf.drop bytes.length } (.recv ch bytes)
  if s.rxState ≠ .armed then s
  else
    let s := { s with rxState := .buffered, rxCh := ch, rxLen := (bytes.length : Int) - headerLen }
    persistRemote s ch (AppleMidi.val32 s.rxBuf) (val16 (s.rxBuf.drop 4))

/-- `recv_complete_cb` with another status, comm_megawifi.c:291-294 and 309-312. -/
def recvFailed (s : St) : St :=
  let s := log s .recvFailed
  if s.rxState ≠ .armed then s else { s with rxState := .idle }

/-- `send_complete_cb`, comm_megawifi.c:375-383. -/
def sendDone (s : St) : St := { log s .sendDone with txState := .idle }

/-- `send_buffered_packet`, comm_megawifi.c:385-420, with `restore_remote_endpoint`, 281-285; `ok` tells whether
`mw_udp_reuse_send` accepts the packet. -/
def sendBuffered (s : St) (ok : Bool) : St :=
  if s.txState ≠ .queued then s
  else
    let port := if s.txCh = 1 then s.remoteControlPort else s.remoteMidiPort
    let txBuf := Rtp.be32 s.remoteIp ++ [port / 256 % 256, port % 256] ++ s.txBuf.drop headerLen
    let s := { s with txBuf := txBuf, connected := true }
    let s := log s (.send s.txCh (txBuf.take (s.txLen + headerLen)) ok)
    { s with txState := if ok then .inflight else .idle }

/-- `send_receiver_feedback`, comm_megawifi.c:320-332, with `applemidi_sendReceiverFeedback`, applemidi.c:215-223. -/
def sendFeedback (s : St) : St :=
  if s.frame < 10 then s
  else
    let seqNum := s.am.lastSeqNum
    let s := if s.lastSeqNum ≠ seqNum then
        let p := AppleMidi.receiverFeedback s.am
        { send s p.1 p.2 with lastSeqNum := seqNum }
      else s
    { s with frame := 0 }

/-- `comm_megawifi_tick`, comm_megawifi.c:334-364, after the callbacks of `mw_process`. -/
def tick (s : St) (sendOk recvOk : Bool) : St :=
  if !s.listening then s
  else
    let s := if s.rxState = .buffered then
        { processUdp s s.rxCh (s.rxBuf.drop headerLen) (s.rxLen % 65536).toNat with rxState := .idle }
      else s
    let s := if s.txState = .queued then sendBuffered s sendOk else s
    let s := if s.txState = .idle then sendFeedback s else s
    if s.rxState = .idle then
      let s := log s (.arm recvOk)
      if recvOk then { s with rxState := .armed } else s
    else s

/-- `comm_megawifi_write`, comm_megawifi.c:229-237.  The bytes of the array on the stack are indeterminate before they
are written; those sent are all written, and the model fills the array with zeros. -/
def write (s : St) (data : List Nat) : St :=
  let n := 256 + data.length
  match Rtp.pack s.sendSeqNum s.am.tsLo (some data) data.length (List.replicate n 0) (n % 65536) with
  | none => { s with fault := true }
  | some (packedLength, buffer, seq) =>
    let s := { s with sendSeqNum := seq }
    if packedLength = 0 then s else send s 2 (buffer.take packedLength)

/-- `comm_megawifi_vsync`, comm_megawifi.c:315-318. -/
def vsync (s : St) (delta : Nat) : St := { s with frame := (s.frame + delta) % 65536 }

/-- `comm_megawifi_read_ready`, comm_megawifi.c:202-207. -/
def readReady (s : St) : Bool := s.recvData && Ring.canRead s.ring

/-- `comm_megawifi_read`, comm_megawifi.c:209-222. -/
def read (s : St) : Nat × St :=
  match Ring.read s.ring with
  | none => (0, { s with fault := true })
  | some (.ok, d, ring) => (d.getD 0, { s with ring := ring })
  | some (_, _, ring) => (0, { s with ring := ring })

/-- A step of the history. -/
inductive Op
  | sendDone
  | recv (ch : Nat) (bytes : List Nat)
  | recvFailed
  | tick (sendOk recvOk : Bool)
  | write (data : List Nat)
  | vsync (delta : Nat)
  | read
  deriving DecidableEq, Repr

/-- One step (harness, not C code). -/
def step (s : St) : Op → St
  | .sendDone => sendDone s
  | .recv ch bytes => recv s ch bytes
  | .recvFailed => recvFailed s
  | .tick a b => tick s a b
  | .write data => write s data
  | .vsync d => vsync s d
  | .read => (read s).2

/-- A history (harness). -/
def run (s : St) (ops : List Op) : St := ops.foldl step s

end Mdmi.Wifi
