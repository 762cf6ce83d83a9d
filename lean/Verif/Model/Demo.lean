import Verif.Model.RingBuf
/-!
# Model of `src/comm/comm_demo.c`

The state of the joypad is an argument of the calls that read it (`JOY_readJoypad(JOY_1)`, SGDK; the button masks are
those of SGDK's joy.h: UP 1, DOWN 2, LEFT 4, RIGHT 8, B 16, C 32, A 64, START 128).  `prev_joy_state` is never read and is
left out.  An access outside the ring sets the sticky `fault`.
-/
namespace Mdmi.Demo
open Mdmi

/-- File-level variables, comm_demo.c:13-21, and the bytes the reader has been given, oldest first. -/
structure St where
  enabled : Bool
  played : Bool
  pitch : Nat
  program : Nat
  repeatTimer : Nat
  repeatButton : Nat
  ring : Ring.RingBuf
  given : List Nat
  fault : Bool
  deriving DecidableEq, Repr

/-- `comm_demo_init`, comm_demo.c:26-38. -/
def boot : St where
  enabled := false
  played := false
  pitch := 69
  program := 0
  repeatTimer := 0
  repeatButton := 0
  ring := Ring.init Ring.zeroed (some (List.replicate 24 0)) 24
  given := []
  fault := false

/-- `ring_buf_write(&ring_buf, b)`; the status is ignored everywhere in this file. -/
def put (s : St) (b : Nat) : St :=
  match Ring.write s.ring b with
  | none => { s with fault := true }
  | some (_, ring) => { s with ring := ring }

/-- `send_note_off`, comm_demo.c:79-84. -/
def sendNoteOff (s : St) (pitch : Nat) : St := put (put (put s 0x80) pitch) 0

/-- `send_note_on`, comm_demo.c:86-91. -/
def sendNoteOn (s : St) (pitch : Nat) : St := put (put (put s 0x90) pitch) 127

/-- `send_program_change`, comm_demo.c:93-97. -/
def sendProgramChange (s : St) (program : Nat) : St := put (put s 0xC0) program

/-- `comm_demo_read_ready`, comm_demo.c:45-67. -/
def readReady (s : St) (joy : Nat) : Bool × St :=
  if !s.enabled then
    if joy &&& 64 ≠ 0 then
      let s := { s with enabled := true }
      let s := if !s.played then
          let s := put (put (put s 0xB0) 83) 0x7F
          let s := put (put (put s 0x90) s.pitch) 0x7F
          { s with played := true }
        else s
      (Ring.canRead s.ring, s)
    else (false, s)
  else (Ring.canRead s.ring, s)

/-- `comm_demo_read`, comm_demo.c:69-77; 0 if there is nothing to read. -/
def read (s : St) : Nat × St :=
  match Ring.read s.ring with
  | none => (0, { s with fault := true })
  | some (.ok, d, ring) => (d.getD 0, { s with ring := ring })
  | some (_, _, ring) => (0, { s with ring := ring })

/-- `should_repeat_button`, comm_demo.c:99-118; the timer is `u16`. -/
def shouldRepeat (s : St) (joy mask : Nat) : Bool × St :=
  if joy &&& mask ≠ 0 then
    if s.repeatButton ≠ mask then (true, { s with repeatButton := mask, repeatTimer := 1 })
    else
      let s := { s with repeatTimer := (s.repeatTimer + 1) % 65536 }
      (s.repeatTimer > 30 && (s.repeatTimer - 30) % 10 == 0, s)
  else if s.repeatButton = mask then (false, { s with repeatButton := 0, repeatTimer := 0 })
  else (false, s)

/-- comm_demo.c:130-137. -/
def up (s : St) (joy : Nat) : St :=
  let (go, s) := shouldRepeat s joy 1
  if go then
    let s := sendNoteOff s s.pitch
    let p := (s.pitch + 1) % 256
    let s := { s with pitch := if p > 106 then 106 else p }
    sendNoteOn s s.pitch
  else s

/-- comm_demo.c:138-145. -/
def down (s : St) (joy : Nat) : St :=
  let (go, s) := shouldRepeat s joy 2
  if go then
    let s := sendNoteOff s s.pitch
    let p := (s.pitch + 255) % 256
    let s := { s with pitch := if p < 11 then 11 else p }
    sendNoteOn s s.pitch
  else s

/-- comm_demo.c:146-154. -/
def right (s : St) (joy : Nat) : St :=
  let (go, s) := shouldRepeat s joy 8
  if go then
    let s := sendNoteOff s s.pitch
    let g := (s.program + 1) % 256
    let s := { s with program := if g > 0x7F then 0x7F else g }
    let s := sendProgramChange s s.program
    sendNoteOn s s.pitch
  else s

/-- comm_demo.c:155-163. -/
def left (s : St) (joy : Nat) : St :=
  let (go, s) := shouldRepeat s joy 4
  if go then
    let s := sendNoteOff s s.pitch
    let g := (s.program + 255) % 256
    let s := { s with program := if g = 0xFF then 0 else g }
    let s := sendProgramChange s s.program
    sendNoteOn s s.pitch
  else s

/-- comm_demo.c:164-167. -/
def buttonA (s : St) (joy : Nat) : St :=
  let (go, s) := shouldRepeat s joy 64
  if go then
    let s := sendNoteOff s s.pitch
    sendNoteOn s s.pitch
  else s

/-- comm_demo.c:168-170. -/
def buttonB (s : St) (joy : Nat) : St :=
  let (go, s) := shouldRepeat s joy 16
  if go then sendNoteOff s s.pitch else s

/-- `comm_demo_vsync`, comm_demo.c:120-173. -/
def vsync (s : St) (joy : Nat) : St :=
  if !s.enabled then s
  else buttonB (buttonA (left (right (down (up s joy) joy) joy) joy) joy) joy

/-- What the comm layer does with this module (comm.c:71-105): it asks whether there is something to read, it reads one
byte after the answer yes, and it calls the frame handler. -/
inductive Op
  | ask (joy : Nat)
  | read
  | frame (joy : Nat)
  deriving DecidableEq, Repr

/-- One call (harness); a byte read is appended to `given`. -/
def step (s : St) : Op → St
  | .ask joy => (readReady s joy).2
  | .read => { (read s).2 with given := s.given ++ [(read s).1] }
  | .frame joy => vsync s joy

/-- A history (harness). -/
def run (s : St) (ops : List Op) : St := ops.foldl step s

end Mdmi.Demo
