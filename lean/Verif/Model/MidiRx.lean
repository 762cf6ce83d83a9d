import Verif.Model.Midi
/-!
# Model of `src/midi_rx.c`

A reader is the list of the bytes it will still deliver.  `comm_read` blocks until a byte is there (comm.c:98-106), so
a message whose bytes have not all arrived simply has not been read yet (`none`).  The startup sequence reader calls
`SYS_die` instead.  Not modelled: `debug_print_event` (a debugging build option).
-/
namespace Mdmi.Rx
open Mdmi.Midi (Op)

/-- What `read_message` does once it has read a message: a call into the engine, a reset with the startup sequence
(midi_rx.c:190-193), a log warning, or nothing. -/
inductive Call where
  | noteOn (c pitch velocity : Nat)
  | noteOff (c pitch : Nat)
  | cc (c controller value : Nat)
  | bend (c bend : Nat)
  | program (c program : Nat)
  | sysex (data : List Nat)
  | reset
  | warn (status : Nat)
  | nothing
  deriving DecidableEq, Repr

/-- `read_sysex`, midi_rx.c:201-211: `room` is what is left of the 256-byte buffer; gives the bytes put into it. -/
def readSysex : (room : Nat) → List Nat → Option (List Nat × List Nat)
  | 0, bs => some ([], bs)
  | _ + 1, [] => none
  | room + 1, b :: bs =>
    if b = 0xF7 then some ([], bs)
    else match readSysex room bs with
      | none => none
      | some (d, rest) => some (b :: d, rest)

/-- `read_system_message`, midi_rx.c:174-199. -/
def readSystem (status : Nat) (bs : List Nat) : Option (Call × List Nat) :=
  match status % 16 with
  | 0x2 => match bs with
    | _ :: _ :: rest => some (.nothing, rest)
    | _ => none
  | 0x8 | 0xA | 0xB | 0xC => some (.nothing, bs)
  | 0x0 => match readSysex 256 bs with
    | none => none
    | some (d, rest) => some (.sysex d, rest)
  | 0xF => some (.reset, bs)
  | _ => some (.warn status, bs)

/-- `read_message` and the readers of the channel messages, midi_rx.c:95-172 (`(upper << 7) + lower` is at most
32895). -/
def readMessage : List Nat → Option (Call × List Nat)
  | [] => none
  | status :: bs =>
    match status / 16 with
    | 0x9 => match bs with
      | a :: b :: rest => some (.noteOn (status % 16) a b, rest)
      | _ => none
    | 0x8 => match bs with
      | a :: _ :: rest => some (.noteOff (status % 16) a, rest)
      | _ => none
    | 0xB => match bs with
      | a :: b :: rest => some (.cc (status % 16) a b, rest)
      | _ => none
    | 0xE => match bs with
      | a :: b :: rest => some (.bend (status % 16) (b * 128 + a), rest)
      | _ => none
    | 0xC => match bs with
      | a :: rest => some (.program (status % 16) a, rest)
      | _ => none
    | 0xF => readSystem status bs
    | _ => some (.warn status, bs)

/-- The loops of midi_rx.c:51-56 and 76-78: read messages until the bytes run out; gives what they do, and the bytes
of a message that is still incomplete.  Every message takes a byte, so `fuel` beyond the length has no effect. -/
def readLoop : (fuel : Nat) → List Nat → List Call × List Nat
  | 0, bs => ([], bs)
  | fuel + 1, bs =>
    match readMessage bs with
    | none => ([], bs)
    | some (c, rest) => (c :: (readLoop fuel rest).1, (readLoop fuel rest).2)

/-- All that is read from the bytes. -/
def readAll (bs : List Nat) : List Call × List Nat := readLoop bs.length bs

/-! ### The receiver on top of the engine -/

/-- Ways of not returning: `SYS_die` (midi_rx.c:66-68), or resets without end (see `startup`). -/
inductive Stop where
  | died | looping
  deriving DecidableEq, Repr

/-- The engine and the receiver's warnings, newest first. -/
structure Sys where
  midi : Midi.St
  warnings : List Nat
  stop : Option Stop

/-- Constant data: that of the engine and `STARTUP_MIDI_SEQUENCE` (user_prefs.h, settings.c:4-10). -/
structure Env where
  midi : Midi.Env
  startup : List Nat

/-- A call into the engine; `junk` is the content of the byte after a system exclusive payload. -/
def engine (env : Env) (s : Sys) (op : Op) : Sys := { s with midi := Midi.step env.midi s.midi op }

/-- What a message other than the reset does. -/
def act (env : Env) (junk : Nat) (s : Sys) : Call → Sys
  | .noteOn c p v => engine env s (.noteOn c p v)
  | .noteOff c p => engine env s (.noteOff c p)
  | .cc c k v => engine env s (.cc c k v)
  | .bend c b => engine env s (.bend c b)
  | .program c p => engine env s (.program c p)
  | .sysex d => engine env s (.sysex d junk)
  | .warn status => { s with warnings := status :: s.warnings }
  | .nothing => s
  | .reset => engine env { s with warnings := 0xFF :: s.warnings } .reset

/-- The loop of `midi_rx_run_startup_sequence`, midi_rx.c:76-78, up to the first reset; tells whether it met one. -/
def startupLoop (env : Env) (junk : Nat → Nat) : (s : Sys) → List Call → Sys × Bool
  | s, [] => (s, false)
  | s, c :: cs =>
    if c = .reset then (act env 0 s .reset, true)
    else startupLoop env (fun n => junk (n + 1)) (act env (junk 0) s c) cs

/-- `midi_rx_run_startup_sequence`, midi_rx.c:72-79, with at most `depth` nested calls; `none` if it needs more.  A
reset inside the sequence (midi_rx.c:190-193) calls it again from the beginning; when that call returns, the index is
at the end and the outer loop ends too.  A message cut off by the end of the sequence is `SYS_die`. -/
def startup (env : Env) (junk : Nat → Nat) : (depth : Nat) → Sys → Option Sys
  | 0, _ => none
  | depth + 1, s =>
    match startupLoop env junk s (readAll env.startup).1 with
    | (s, true) => startup env junk depth s
    | (s, false) => some (if (readAll env.startup).2 = [] then s else { s with stop := some .died })

/-- The startup sequence as a whole: without a reset one call is enough, with one no number of calls is (proved in
`Verif.Props.C59`). -/
def startupAll (env : Env) (junk : Nat → Nat) (s : Sys) : Sys :=
  match startup env junk 1 s with
  | some t => t
  | none => { s with stop := some .looping }

/-- A message: midi_rx.c:95-122 with the effect of the reset. -/
def deliver (env : Env) (junk : Nat → Nat) (s : Sys) (c : Call) : Sys :=
  if s.stop ≠ none then s
  else if c = .reset then startupAll env junk (act env 0 s .reset)
  else act env (junk 0) s c

/-- A list of messages. -/
def deliverAll (env : Env) : (junk : Nat → Nat → Nat) → Sys → List Call → Sys
  | _, s, [] => s
  | junk, s, c :: cs => deliverAll env (fun n => junk (n + 1)) (deliver env (junk 0) s c) cs

/-- `midi_rx_read_if_comm_ready`, midi_rx.c:51-61, over the bytes that arrive. -/
def receive (env : Env) (junk : Nat → Nat → Nat) (s : Sys) (bs : List Nat) : Sys :=
  deliverAll env junk s (readAll bs).1

/-- `main`, main.c:22-35: engine, then startup sequence. -/
def boot (env : Env) (junk : Nat → Nat) (busTaken : Bool) (mem : Sram.Mem) : Sys :=
  startupAll env junk { midi := Midi.boot env.midi busTaken mem, warnings := [], stop := none }

end Mdmi.Rx
