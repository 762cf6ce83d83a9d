import Verif.Model.Midi
/-!
# Model of `src/main.c`: start-up

The order in which the modules are initialised, the handlers they register with the scheduler
(src/scheduler.c:76-92) and the cartridge detection (`comm_everdrive_init`, `comm_everdrive_pro_init`,
`sram_init`).  What an initialisation does inside its own module is in the model of that module; here it is
the event `ready`.  `SYS_die` sets `died`.
-/
namespace Mdmi.Main

/-- Functions registered with the scheduler. -/
inductive Handler
  | psgTick | midiTick | uiUpdate | wifiVsync | demoVsync | ledTick   -- frame handlers
  | wifiTick | rxRead                                                 -- tick handlers
  deriving DecidableEq, Repr

/-- Modules with state to initialise. -/
inductive Module
  | log | scheduler | psg | fm | midi | ui | everdrive | everdrivePro | serial | wifi | demo | led | rx
  deriving DecidableEq, Repr

/-- The interfaces of comm.c:44-58. -/
inductive Iface
  | everdrive | everdrivePro | serial | wifi | demo
  deriving DecidableEq, Repr

/-- Build options: settings.h:11-14, `MEGAWIFI` of the tool chain folded into `wifi`. -/
structure Build where
  x7 : Bool
  pro : Bool
  serial : Bool
  wifi : Bool
  deriving DecidableEq, Repr

/-- What start-up reads from outside: the registers REG_SYS_STAT (0xA130D4) and REG_STE (0xA130E4), and for each
call of `scheduler_yield` made by the MegaWiFi initialisation (comm_megawifi.c:79-82 and below) whether a frame
has passed. -/
structure Hw where
  sysStat : Nat
  ste : Nat
  yields : List Bool
  deriving DecidableEq, Repr

/-- Values of `sram_ops`, sram.c:14-35; `null` is its value at power-on. -/
inductive Backend
  | null | none | edPro | edX7
  deriving DecidableEq, Repr

/-- Events: a module finished setting its state, a handler was called. -/
inductive Ev
  | ready (m : Module) | run (h : Handler)
  deriving DecidableEq, Repr

/-- Statics: `is_present` of comm_everdrive.c:14 and comm_everdrive_pro.c:14, `sram_ops` (sram.c:35), the handler
arrays with their lengths (scheduler.c:12-19), and the events so far (newest first). -/
structure St where
  x7 : Bool
  pro : Bool
  sramOps : Backend
  ticks : List Handler
  frames : List Handler
  died : Bool
  trace : List Ev
  deriving DecidableEq, Repr

/-- The statics at power-on (initialisers, zeroed memory). -/
def cold : St := ⟨false, false, .null, [], [], false, []⟩

/-- Module `m` has set its state. -/
def ready (m : Module) (s : St) : St := { s with trace := .ready m :: s.trace }

/-- `scheduler_addTickHandler`, scheduler.c:76-83. -/
def addTick (h : Handler) (s : St) : St :=
  if s.ticks.length = 3 then { s with died := true } else { s with ticks := s.ticks ++ [h] }

/-- `scheduler_addFrameHandler`, scheduler.c:85-92. -/
def addFrame (h : Handler) (s : St) : St :=
  if s.frames.length = 6 then { s with died := true } else { s with frames := s.frames ++ [h] }

/-- `scheduler_init`, scheduler.c:21-28. -/
def schedulerInit (s : St) : St := ready .scheduler { s with ticks := [], frames := [] }

/-- `scheduler_yield`, scheduler.c:55-67: the tick handlers and, if a frame has passed, the frame handlers.  The
handlers are opaque here; they register nothing. -/
def schedulerYield (s : St) (frame : Bool) : St :=
  let s := { s with trace := (s.ticks.map Ev.run).reverse ++ s.trace }
  if frame then { s with trace := (s.frames.map Ev.run).reverse ++ s.trace } else s

/-- `midi_psg_init`, midi_psg.c:60-65. -/
def psgInit (s : St) : St := ready .psg (addFrame .psgTick s)

/-- `sram_init`, sram.c:38-48. -/
def sramInit (s : St) : St :=
  { s with sramOps := if s.pro then .edPro else if s.x7 then .edX7 else .none }

/-- `midi_fm_init`, midi_fm.c:44-49, with `midi_fm_sram_init` (midi_fm_sram.c:14-17). -/
def fmInit (s : St) : St := ready .fm (sramInit s)

/-- `midi_init`, midi.c:106-117. -/
def midiInit (s : St) : St := ready .midi (addFrame .midiTick (fmInit (psgInit s)))

/-- `ui_init`, ui.c:119 ff. -/
def uiInit (s : St) : St := ready .ui (addFrame .uiUpdate s)

/-- `comm_everdrive_init`, comm_everdrive.c:16-33. -/
def everdriveInit (hw : Hw) (s : St) : St :=
  let status := hw.ste >>> 8
  ready .everdrive { s with x7 := status == 0x00 || status == 0x40 }

/-- `comm_everdrive_pro_init`, comm_everdrive_pro.c:72-75. -/
def everdriveProInit (hw : Hw) (s : St) : St :=
  ready .everdrivePro { s with pro := hw.sysStat &&& 0xFFF0 == 0x55A0 }

/-- `comm_megawifi_init`, comm_megawifi.c:57-84; the state is set before the first yield. -/
def wifiInit (hw : Hw) (s : St) : St :=
  hw.yields.foldl schedulerYield (addFrame .wifiVsync (addTick .wifiTick (ready .wifi s)))

/-- `comm_demo_init`, comm_demo.c:26-38. -/
def demoInit (s : St) : St := ready .demo (addFrame .demoVsync s)

/-- The `init` members of the tables, comm.c:26-42. -/
def ifaceInit (hw : Hw) (s : St) : Iface → St
  | .everdrive => everdriveInit hw s
  | .everdrivePro => everdriveProInit hw s
  | .serial => ready .serial s
  | .wifi => wifiInit hw s
  | .demo => demoInit s

/-- `commTypes`, comm.c:44-58. -/
def commTypes (b : Build) : List Iface :=
  (if b.x7 then [.everdrive] else []) ++ (if b.pro then [.everdrivePro] else []) ++
    (if b.serial then [.serial] else []) ++ (if b.wifi then [.wifi] else []) ++ [.demo]

/-- `comm_init`, comm.c:64-70. -/
def commInit (b : Build) (hw : Hw) (s : St) : St := (commTypes b).foldl (ifaceInit hw) s

/-- `everdrive_led_init`, everdrive_led.c:25-28. -/
def ledInit (s : St) : St := ready .led (addFrame .ledTick s)

/-- `midi_rx_init`, midi_rx.c:46-49. -/
def rxInit (s : St) : St := ready .rx (addTick .rxRead s)

/-- `main` up to the start-up sequence and `scheduler_run`, main.c:18-28, on the statics `s` that the machine
starts with. -/
def main (b : Build) (hw : Hw) (s : St) : St :=
  let s := ready .log s                       -- log_init
  let s := schedulerInit s                    -- scheduler_init
  let s := midiInit s                         -- midi_init
  let s := uiInit s                           -- ui_init
  let s := commInit b hw s                    -- comm_init
  let s := ledInit s                          -- everdrive_led_init
  rxInit s                                    -- midi_rx_init

/-- `sram_is_present`, sram.c:77-80. -/
def sramPresent (s : St) : Bool := s.sramOps != .none

/-- `COMM_*` as shipped, settings.h:11-14. -/
def shipped : Build := ⟨true, true, true, true⟩

/-- The environment of the MIDI engine in a session that started in state `s`: the tables are given, the presence of
preset memory is what `sram_is_present` answers (`sram_ops` is not written after `sram_init`). -/
def session (env : Midi.Env) (s : St) : Midi.Env := { env with fm := { env.fm with sram := sramPresent s } }

end Mdmi.Main
