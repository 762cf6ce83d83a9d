import Verif.Model.RingConc
/-!
# Model of `src/comm/comm_serial.c` and the receive side of `src/comm/serial.c`

The UART is a list of received bytes not yet read from the RX register (`pending`); how many bytes
real hardware can hold there is not modelled (bytes overwritten inside the UART never appear).  The
external interrupt runs to completion between any two memory accesses of the main loop.  The main
loop side is `comm_serial_read_ready` followed, when it says yes, by `comm_serial_read`
(the call pattern of src/comm/comm.c:96-104).  `trace` records what happened to every byte; it is not
part of the C code.  Simplification: `ring_buf_available` at comm_serial.c:79-82 only decides
whether a warning is logged and is left out.
-/
namespace Mdmi.Serial
open Mdmi.Ring

/-- History: queue events, plus bytes discarded by `flush_rrdy` during start-up. -/
inductive Ev
  | q (e : Fifo.Ev) | flush (b : Nat)
  deriving DecidableEq, Repr

/-- Progress of `comm_serial_init` (src/comm/comm_serial.c:51-60). -/
inductive Phase
  | off        -- before `ring_buf_init`
  | intOn      -- after `serial_init` (line 54): interrupt enabled, `readReadyCallback` still NULL
  | flushing   -- after `serial_setReadyToReceiveCallback` (line 55), inside `flush_rrdy`
  | running    -- initialised
  deriving DecidableEq, Repr

/-- Main-loop program counter: `comm_serial_read_ready` (lines 67-72) then `ring_buf_read`. -/
inductive Pc
  | idle
  | chkRecv                -- about to load `recvData` (line 69)
  | chkTail                -- about to load `tail` in `ring_buf_can_read` (ring_buf.c:50)
  | chkHead (t : Nat)      -- about to load `head` in `ring_buf_can_read`
  | rd (c : RingConc.CPc)  -- inside `ring_buf_read` called at line 77
  deriving DecidableEq, Repr

/-- Serial driver state plus UART. -/
structure St where
  phase : Phase
  rb : RingBuf
  recvData : Bool
  pending : List Nat
  pc : Pc
  trace : List Ev
  deriving DecidableEq, Repr

/-- Power-on: `static` objects zero (src/comm/comm_serial.c:8-10). -/
def boot : St := ⟨.off, Ring.zeroed, false, [], .idle, []⟩

/-- `ring_buf_arr`, 512 zeroed bytes, src/comm/comm_serial.c:9. -/
def ringBufArr : List Nat := List.replicate 512 0

/-- `update_buffer`, src/comm/comm_serial.c:26-37. -/
def updateBuffer (rb : RingBuf) (recv : Bool) (tr : List Ev) :
    List Nat → Option (RingBuf × Bool × List Nat × List Ev)
  | [] => some (rb, recv, [], tr)
  | b :: rest => match Ring.write rb b with
    | none => none
    | some (.full, rb') => some (rb', true, rest, tr ++ [.q (.reject b)])
    | some (.ok, rb') => updateBuffer rb' true (tr ++ [.q (.accept b)]) rest
    | some (_, rb') => updateBuffer rb' true tr rest

/-- What can happen next. -/
inductive Act
  | arrive (b : Nat)   -- the UART receives a byte
  | irq                -- the external interrupt is taken
  | init               -- next statement of `comm_serial_init`
  | poll               -- the main loop asks for a byte (ignored while it already is)
  | main               -- one memory access of the main loop
  deriving DecidableEq, Repr

/-- `ext_int_callback` → `readReadyCallback` → `recv_ready_callback` → `update_buffer`
(src/comm/serial.c:21-24, src/comm/comm_serial.c:39-42).  Calling the NULL callback is `none`. -/
def irq (s : St) : Option St :=
  match s.phase with
  | .off => some s
  | .intOn => none
  | _ => match updateBuffer s.rb s.recvData s.trace s.pending with
    | none => none
    | some (rb, r, p, t) => some { s with rb := rb, recvData := r, pending := p, trace := t }

/-- `comm_serial_init`, src/comm/comm_serial.c:51-60 (512-byte array at line 9, sent to
`ring_buf_init` with `sizeof`), including `flush_rrdy` lines 44-49, one byte per step. -/
def init (s : St) : St :=
  match s.phase with
  | .off => { s with phase := .intOn,
                     rb := Ring.init s.rb (some ringBufArr) 512 }
  | .intOn => { s with phase := .flushing }
  | .flushing => match s.pending with
    | [] => { s with phase := .running }
    | b :: rest => { s with pending := rest, trace := s.trace ++ [.flush b] }
  | .running => s

/-- One access of `comm_serial_read_ready` / `comm_serial_read`, src/comm/comm_serial.c:67-91. -/
def mainStep (s : St) : Option St :=
  match s.pc with
  | .idle => some s
  | .chkRecv => some { s with pc := if s.recvData then .chkTail else .idle }
  | .chkTail => some { s with pc := .chkHead s.rb.tail }
  | .chkHead t => some { s with pc := if t = s.rb.head then .idle else .rd .loadTail }
  | .rd c => match RingConc.consStep ⟨s.rb, .idle, c, []⟩ with
    | none => none
    | some c' => some { s with rb := c'.rb, pc := if c'.c = .idle then .idle else .rd c'.c,
                               trace := s.trace ++ c'.trace.map .q }

/-- One scheduler choice.  The main loop polls only after initialisation (src/main.c). -/
def step (s : St) : Act → Option St
  | .arrive b => some { s with pending := s.pending ++ [b] }
  | .irq => irq s
  | .init => some (init s)
  | .poll => some (if s.pc = .idle ∧ s.phase = .running then { s with pc := .chkRecv } else s)
  | .main => mainStep s

/-- A schedule; `none` as soon as something undefined happens. -/
def run (s : St) : List Act → Option St
  | [] => some s
  | a :: as => match step s a with
    | none => none
    | some s' => run s' as

end Mdmi.Serial
