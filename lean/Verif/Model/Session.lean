import Verif.Model.MidiRx
/-!
# Model of the main loop around the receiver and the engine

`scheduler_run` (scheduler.c:69-74) calls `midi_rx_read_if_comm_ready` (midi_rx.c:51-56) and, once per frame, the frame
handlers `midi_psg_tick` and `midi_tick` in this order (scheduler.c:35-40, midi_psg.c and midi.c register them in `midi_init`).
Once the first byte of a message has been read, the rest is read by `comm_read`, which waits (comm/comm.c:96-104): no handler runs
until the message is complete.  The other handlers do not touch the engine and are left out.  The rings between the
sources and the receiver are in the models of the sources; here bytes are those that reached the ring.
-/
namespace Mdmi.Session
open Mdmi

/-- Where bytes come from.  Serial port and USB (comm_serial.c:25-42, everdrive.c, comm_everdrive*.c): the hardware or an
interrupt handler delivers them whatever the main loop does.  Network and demo: a tick handler (comm_megawifi.c:334-364) or
a frame handler (comm_demo.c) produces them. -/
inductive Source
  | hardware | handler
  deriving DecidableEq, Repr

/-- What happens to the main loop: bytes arrive; a frame passes. -/
inductive Event
  | bytes (bs : List Nat)
  | frame
  deriving DecidableEq, Repr

/-- Receiver and engine; the bytes of the message that is being read, empty outside `read_message`; and the number of
messages read. -/
structure St where
  sys : Rx.Sys
  partly : List Nat
  seen : Nat

/-- `main` up to `scheduler_run`, main.c:22-35. -/
def boot (env : Rx.Env) (junk : Nat → Nat) (busTaken : Bool) (mem : Sram.Mem) : St :=
  ⟨Rx.boot env junk busTaken mem, [], 0⟩

/-- Bytes go to the reader, which takes all complete messages and waits for the rest of the last. -/
def read (env : Rx.Env) (junk : Nat → Nat → Nat) (s : St) (bs : List Nat) : St :=
  let r := Rx.readAll (s.partly ++ bs)
  ⟨Rx.deliverAll env (fun n => junk (s.seen + n)) s.sys r.1, r.2, s.seen + r.1.length⟩

/-- One event.  A handler that produces bytes does not run while the reader waits; nor do the frame handlers.  Nothing runs
after `SYS_die` or in an endless startup sequence. -/
def step (env : Rx.Env) (junk : Nat → Nat → Nat) (src : Source) (s : St) : Event → St
  | .bytes bs => if s.sys.stop ≠ none ∨ (src = .handler ∧ s.partly ≠ []) then s else read env junk s bs
  | .frame =>
    if s.sys.stop ≠ none ∨ s.partly ≠ [] then s
    else { s with sys := Rx.engine env (Rx.engine env s.sys .psgTick) .tick }

/-- A session. -/
def run (env : Rx.Env) (junk : Nat → Nat → Nat) (src : Source) (s : St) (es : List Event) : St :=
  es.foldl (step env junk src) s

end Mdmi.Session
