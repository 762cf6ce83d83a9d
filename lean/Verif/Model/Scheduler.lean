/-!
# Model of `src/scheduler.c`

Every load of the volatile variable `frame` is its own step, and the vertical-blank interrupt may
occur before any step.  Handlers are opaque; calls are recorded in `trace` (newest last).  The number
of registered handlers is fixed before `scheduler_run` (all registrations happen during start-up;
src/midi.c:115, midi_psg.c:62, ui.c:121, comm/comm_megawifi.c:75-76, comm/comm_demo.c:28,
comm/everdrive_led.c:27, midi_rx.c:48) and `scheduler_yield` is only called during start-up, so calls
do not nest.
-/
namespace Mdmi.Scheduler

/-- Program counter inside `scheduler_tick` (src/scheduler.c:60-67). -/
inductive Pc
  | idle                       -- between two calls
  | tickHandlers (k : Nat)     -- `on_tick`: `k` handlers still to call
  | compare                    -- about to load `frame` for the comparison (line 63)
  | delta                      -- about to load `frame` for the argument (line 64)
  | frameHandlers (d k : Nat)  -- `on_frame(d)`: `k` handlers still to call
  | save                       -- about to load `frame` and store `previousFrame` (line 65)
  deriving DecidableEq, Repr

/-- Calls made to handlers. -/
inductive Ev
  | tick (i : Nat) | frame (i delta : Nat)
  deriving DecidableEq, Repr

/-- File-scope variables, src/scheduler.c:15-19. -/
structure St where
  frame : Nat
  previousFrame : Nat
  ticks : Nat
  pc : Pc
  trace : List Ev
  deriving DecidableEq, Repr

/-- `scheduler_init`, src/scheduler.c:21-28. -/
def init : St := ⟨0, 0, 0, .idle, []⟩

/-- `scheduler_vsync`, src/scheduler.c:30-33. -/
def vsync (s : St) : St := { s with frame := (s.frame + 1) % 65536 }

/-- One step of `scheduler_tick` with `nt` tick handlers and `nf` frame handlers; `on_tick` is
src/scheduler.c:47-53, `on_frame` 35-40. -/
def tickStep (nt nf : Nat) (s : St) : St :=
  match s.pc with
  | .idle => { s with ticks := (s.ticks + 1) % 65536, pc := .tickHandlers nt }
  | .tickHandlers 0 => { s with pc := .compare }
  | .tickHandlers (k + 1) =>
    { s with pc := .tickHandlers k, trace := s.trace ++ [.tick (nt - (k + 1))] }
  | .compare => { s with pc := if s.frame ≠ s.previousFrame then .delta else .idle }
  | .delta => { s with pc := .frameHandlers ((s.frame + 65536 - s.previousFrame) % 65536) nf }
  | .frameHandlers _ 0 => { s with pc := .save }
  | .frameHandlers d (k + 1) =>
    { s with pc := .frameHandlers d k, trace := s.trace ++ [.frame (nf - (k + 1)) d] }
  | .save => { s with pc := .idle, previousFrame := s.frame }

/-- Scheduler choices. -/
inductive Act
  | vsync | step
  deriving DecidableEq, Repr

/-- One choice. -/
def act (nt nf : Nat) (s : St) : Act → St
  | .vsync => vsync s
  | .step => tickStep nt nf s

/-- A schedule. -/
def run (nt nf : Nat) (s : St) (as : List Act) : St := as.foldl (act nt nf) s

/-- `MAX_TICK_HANDLERS`, `MAX_FRAME_HANDLERS`, src/scheduler.c:9-10; `scheduler_addTickHandler` and
`scheduler_addFrameHandler`, src/scheduler.c:76-92, on the number of registered handlers.
`none` = `SYS_die`. -/
def addHandler (max n : Nat) : Option Nat := if n = max then none else some (n + 1)

end Mdmi.Scheduler
