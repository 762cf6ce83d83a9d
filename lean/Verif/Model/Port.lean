/-!
# Register-level model of the links: `src/mem.c`, `src/comm/serial.c`, the port accesses of
`src/comm/comm_serial.c`, `src/comm/comm_everdrive.c`, `src/comm/comm_everdrive_pro.c`,
`src/comm/everdrive_led.c`, `src/comm/mw_uart.c`, and their use by `src/comm/comm.c`

Every access to a hardware register is recorded in `acc` (newest first).  What the hardware answers
is arbitrary: `hw` lists the values the coming reads return, and the external interrupts taken before
them.  When the answers run out the execution has been observed as far as it goes: the result is
`none`, what was done up to there stays in `acc`.  So a statement about every `hw` is a statement
about every finite piece of every execution, busy-waiting included.

Simplifications.  The interrupt is taken between two accesses, runs to the end, and is not taken
before `comm_serial_init` has installed its callback (the window before that is in `Model/Serial`).
The ring buffers are in `Model/Serial` and `Model/MegaWifi`: here an answer that depends on them (and
on the joypad) is taken from `hw` too, without an access.  The counters of `comm.c` are in
`Model/Comm`.  `JOY_init` and `JOY_update` (SGDK, called by `comm_demo.c`) access the joypad ports and
are not modelled; neither is the MegaWiFi library apart from `mw_uart.c`.
-/
namespace Mdmi.Port

/-- An access to a hardware register, or one of the SGDK calls of `serial_init`. -/
inductive Acc
  | r8 (a v : Nat) | r16 (a v : Nat) | w8 (a v : Nat) | w16 (a v : Nat)
  | intMask (level : Nat) | vdpReg (reg v : Nat) | extInt
  deriving DecidableEq, Repr

/-- The hardware's next move: answer a read, or interrupt (`room`: bytes the ring buffer can still
take, see `isr`). -/
inductive Hw
  | val (v : Nat) | irq (room : Nat)
  deriving DecidableEq, Repr

/-- Entries of `commTypes`, src/comm/comm.c:43-57. -/
inductive Link
  | x7 | pro | serial | wifi | demo
  deriving DecidableEq, Repr

/-- `io_port` (serial.c:9), `ledOn` (everdrive_led.c:11), the two `is_present` (comm_everdrive.c:14,
comm_everdrive_pro.c:14), `activeCommType` (comm.c:61), VDP register 11 as `VDP_getReg` gives it,
whether the interrupt can be taken, and whether a NULL pointer was dereferenced. -/
structure St where
  hw : List Hw
  acc : List Acc
  ioPort : Nat
  vdp11 : Nat
  irqOn : Bool
  led : Bool
  x7 : Bool
  pro : Bool
  active : Option Link
  fault : Bool
  deriving DecidableEq, Repr

/-- Code that runs on the machine; `none` = not finished when the observation ends. -/
def M (α : Type) : Type := St → Option α × St

namespace M
/-- Nothing to do. -/
def pure {α : Type} (a : α) : M α := fun s => (some a, s)
/-- One after the other. -/
def bind {α β : Type} (m : M α) (f : α → M β) : M β := fun s =>
  match m s with
  | (some a, t) => f a t
  | (none, t) => (none, t)
end M

instance : Monad M where
  pure := M.pure
  bind := M.bind

/-- Observation ends. -/
def stop {α : Type} : M α := fun s => (none, s)
/-- A software variable. -/
def get {α : Type} (f : St → α) : M α := fun s => (some (f s), s)
/-- Assignment to software variables. -/
def put (f : St → St) : M Unit := fun s => (some (), f s)

/-- The next answer, interrupts being masked. -/
def next : List Hw → Option (Nat × List Hw)
  | [] => none
  | .irq _ :: r => next r
  | .val v :: r => some (v, r)

/-- An answer that is not a register access. -/
def rawAsk : M Nat := fun s =>
  match next s.hw with
  | none => (none, { s with hw := [] })
  | some (v, r) => (some v, { s with hw := r })

/-- Record an access. -/
def note (a : Acc) : M Unit := put fun s => { s with acc := a :: s.acc }

/-- A byte read with interrupts masked. -/
def rawR8 (a : Nat) : M Nat := do
  let v ← rawAsk
  note (.r8 a (v % 256))
  pure (v % 256)

/-- `PORT2_…` and `EXT_…`, src/comm/serial.h:4-12, through `regs[io_port]`, serial.c:11-19.
`IoPort` has the two values 0 and 1; another index would be out of bounds (never the case: the only
caller passes `COMM_SERIAL_PORT`). -/
def ctrl (port : Nat) : Nat := if port = 0 then 0xA1000B else 0xA1000D
/-- serial.h:5,10. -/
def sctrl (port : Nat) : Nat := if port = 0 then 0xA10019 else 0xA1001F
/-- serial.h:6,11. -/
def tx (port : Nat) : Nat := if port = 0 then 0xA10015 else 0xA1001B
/-- serial.h:7,12. -/
def rx (port : Nat) : Nat := if port = 0 then 0xA10017 else 0xA1001D

/-- The external interrupt: `ext_int_callback` (serial.c:21-24) → `recv_ready_callback` →
`update_buffer` (comm_serial.c:26-42): while RRDY is set, read RX and store it; stop when the ring
buffer is full. -/
def isr : Nat → M Unit
  | 0 => do
    let st ← rawR8 (sctrl (← get (·.ioPort)))
    if st &&& 2 = 0 then pure () else
    let _ ← rawR8 (rx (← get (·.ioPort)))
  | room + 1 => do
    let st ← rawR8 (sctrl (← get (·.ioPort)))
    if st &&& 2 = 0 then pure () else
    let _ ← rawR8 (rx (← get (·.ioPort)))
    isr room

/-- The interrupts due now (at most `n`). -/
def irqs : Nat → M Unit
  | 0 => pure ()
  | n + 1 => fun s =>
    match s.hw with
    | .irq room :: r => (if s.irqOn then isr room >>= fun _ => irqs n else irqs n) { s with hw := r }
    | _ => (some (), s)

/-- The interrupts taken before the next access. -/
def serve : M Unit := fun s => irqs s.hw.length s

/-- An answer of a ring buffer, the joypad or the MegaWiFi library. -/
def ask : M Nat := do serve; rawAsk

/-- `mem_read_u8`, src/mem.c:3-6. -/
def r8 (a : Nat) : M Nat := do serve; rawR8 a

/-- `mem_read_u16`, src/mem.c:8-11. -/
def r16 (a : Nat) : M Nat := do
  serve
  let v ← rawAsk
  note (.r16 a (v % 65536))
  pure (v % 65536)

/-- `mem_write_u8`, src/mem.c:13-16. -/
def w8 (a v : Nat) : M Unit := do serve; note (.w8 a v)

/-- `mem_write_u16`, src/mem.c:18-21. -/
def w16 (a v : Nat) : M Unit := do serve; note (.w16 a v)

/-- `while (!ready());`: at most `n` polls. -/
def poll (ready : M Bool) : Nat → M Unit
  | 0 => stop
  | n + 1 => do if ← ready then pure () else poll ready n

/-- `while (!ready());`.  A poll that reads a register uses up an answer, so the bound is not what ends
the loop; a poll that does not and says no says no for ever. -/
def spin (ready : M Bool) : M Unit := fun s => poll ready (s.hw.length + 1) s

/-! ## src/comm/serial.c -/

/-- `serial_sctrl`, serial.c:36-39. -/
def serialSctrl : M Nat := do r8 (sctrl (← get (·.ioPort)))

/-- `serial_readyToReceive`, serial.c:41-44 (`SCTRL_RRDY` = 2). -/
def readyToReceive : M Bool := do
  let v ← r8 (sctrl (← get (·.ioPort)))
  pure (decide (v &&& 2 ≠ 0))

/-- `serial_receive`, serial.c:46-49. -/
def receive : M Nat := do r8 (rx (← get (·.ioPort)))

/-- `serial_init`, serial.c:56-66 (`CTRL_PCS_OUT` = 0x7F, `SCTRL_RINT` = 8, `VDP_IE2` = 8). -/
def serialInit (port flags : Nat) : M Unit := do
  put fun s => { s with ioPort := port }
  w8 (sctrl port) flags
  w8 (ctrl port) 0x7F
  if flags &&& 8 ≠ 0 then
    note (.intMask 1)
    let r ← get (·.vdp11)
    note (.vdpReg 0xB (r ||| 8))
    put fun s => { s with vdp11 := r ||| 8 }
    note .extInt

/-- `serial_send`, serial.c:68-71. -/
def serialSend (b : Nat) : M Unit := do w8 (tx (← get (·.ioPort))) b

/-- `serial_readyToSend`, serial.c:73-76 (`SCTRL_TFUL` = 1). -/
def readyToSend : M Bool := do
  let v ← r8 (sctrl (← get (·.ioPort)))
  pure (decide (v &&& 1 = 0))

/-- `serial_sendWhenReady`, serial.c:78-83. -/
def sendWhenReady (b : Nat) : M Unit := do spin readyToSend; serialSend b

/-! ## src/comm/comm_serial.c -/

/-- `baud_rate`, comm_serial.c:12-24. -/
def baudRate : M Nat := do
  let v ← serialSctrl
  let c := v &&& 0xC0
  pure (if c = 0xC0 then 300 else if c = 0x80 then 1200 else if c = 0x40 then 2400 else 4800)

/-- The loop of `flush_rrdy`: at most `n` rounds. -/
def flush : Nat → M Unit
  | 0 => stop
  | n + 1 => do
    if ← readyToReceive then
      let _ ← receive
      flush n
    else pure ()

/-- `flush_rrdy`, comm_serial.c:44-49. -/
def flushRrdy : M Unit := fun s => flush (s.hw.length + 1) s

/-- `comm_serial_init`, comm_serial.c:51-60: 4800 bps (0), SIN (0x20), SOUT (0x10), RINT (8).
`port` is `COMM_SERIAL_PORT` (user_prefs.h:27-32: `IoPort_Ctrl2` = 0, the default, or `IoPort_Ext`
= 1), `debug` is `settings_debug_serial()`; the rate read goes to the log. -/
def commSerialInit (port : Nat) (debug : Bool) : M (Option Nat) := do
  serialInit port (0x00 ||| 0x20 ||| 0x10 ||| 0x08)
  put fun s => { s with irqOn := true }
  flushRrdy
  if debug then
    let b ← baudRate
    pure (some b)
  else pure none

/-- `comm_serial_write`, comm_serial.c:98-105. -/
def commSerialWrite : List Nat → M Unit
  | [] => pure ()
  | b :: rest => do
    spin readyToSend
    serialSend b
    commSerialWrite rest

/-! ## src/comm/everdrive_led.c -/

/-- `everdrive_led_blink` and `led_on`, everdrive_led.c:13-17,37-42. -/
def ledBlink : M Unit := do
  if ← get (·.led) then pure () else
    w16 0xA130F0 (0x1000 ||| 0x8000)
    put fun s => { s with led := true }

/-- `everdrive_led_tick` and `led_off`, everdrive_led.c:19-23,30-35. -/
def ledTick : M Unit := do
  if ← get (·.led) then
    w16 0xA130F0 (0x0000 ||| 0x8000)
    put fun s => { s with led := false }

/-! ## src/comm/comm_everdrive.c -/

/-- `comm_everdrive_init`, comm_everdrive.c:16-32 (`SSF_REG16(REG_STE)` = 0xA130E4). -/
def x7Init : M Unit := do
  let v ← r16 0xA130E4
  let status := v >>> 8
  put fun s => { s with x7 := status == 0x00 || status == 0x40 }

/-- `comm_everdrive_read_ready`, comm_everdrive.c:39-42. -/
def x7ReadReady : M Bool := do
  let v ← r16 0xA130E4
  pure (decide (v &&& 4 ≠ 0))

/-- `comm_everdrive_read`, comm_everdrive.c:44-48. -/
def x7Read : M Nat := do
  ledBlink
  let v ← r16 0xA130E2
  pure (v % 256)

/-- `comm_everdrive_write_ready`, comm_everdrive.c:50-53. -/
def x7WriteReady : M Bool := do
  let v ← r16 0xA130E4
  pure (decide (v &&& 2 ≠ 0))

/-- `comm_everdrive_write`, comm_everdrive.c:55-62. -/
def x7Write : List Nat → M Unit
  | [] => pure ()
  | b :: rest => do
    spin x7WriteReady
    w16 0xA130E2 b
    x7Write rest

/-! ## src/comm/comm_everdrive_pro.c -/

/-- `comm_everdrive_pro_init`, comm_everdrive_pro.c:72-75. -/
def proInit : M Unit := do
  let v ← r16 0xA130D4
  put fun s => { s with pro := decide (v &&& 0xFFF0 = 0x55A0) }

/-- `comm_everdrive_pro_read_ready`, comm_everdrive_pro.c:82-85 and `bi_fifo_busy` 16-19. -/
def proReadReady : M Bool := do
  let v ← r16 0xA130D2
  pure (decide (v &&& 0x8000 = 0))

/-- The copy loops, comm_everdrive_pro.c:33-42: `n` bytes. -/
def proBlock : Nat → M (List Nat)
  | 0 => pure []
  | n + 1 => do
    let v ← r16 0xA130D0
    let rest ← proBlock n
    pure (v % 256 :: rest)

/-- `bi_fifo_rd`, comm_everdrive_pro.c:21-44: at most `n` rounds. -/
def proRounds : Nat → Nat → M (List Nat)
  | 0, _ => stop
  | n + 1, len =>
    if len = 0 then pure [] else do
      let v ← r16 0xA130D2
      let block := if v &&& 0x7FF > len then len else v &&& 0x7FF
      let got ← proBlock block
      let rest ← proRounds n (len - block)
      pure (got ++ rest)

/-- `bi_fifo_rd`, comm_everdrive_pro.c:21-44. -/
def fifoRd (len : Nat) : M (List Nat) := fun s => proRounds (s.hw.length + 1) len s

/-- `comm_everdrive_pro_read`, comm_everdrive_pro.c:87-94. -/
def proRead : M Nat := do
  ledBlink
  let d ← fifoRd 1
  pure (d.headD 0)

/-- `bi_fifo_wr`, comm_everdrive_pro.c:46-53. -/
def fifoWr : List Nat → M Unit
  | [] => pure ()
  | b :: rest => do
    w16 0xA130D0 b
    fifoWr rest

/-- `comm_everdrive_pro_write`, comm_everdrive_pro.c:101-104 with `bi_cmd_usb_wr` 65-70 and
`bi_cmd_tx` 55-63; `len` is stored big-endian. -/
def proWrite (data : List Nat) : M Unit := do
  fifoWr [0x2B, 0x2B ^^^ 0xFF, 0x22, 0x22 ^^^ 0xFF]
  let len := data.length % 65536
  fifoWr [len / 256, len % 256]
  fifoWr (data.take len)

/-! ## src/comm/mw_uart.c -/

/-- SGDK `UART_SPR`: scratch register of the cartridge's 16C550, base 0xA130C1 plus 14. -/
def uartSpr : Nat := 0xA130CF

/-- `mw_uart_is_present`, mw_uart.c:3-8. -/
def wifiPresent : M Bool := do
  w8 uartSpr 0x57
  let v ← r8 uartSpr
  pure (v == 0x57)

/-! ## src/comm/comm.c -/

/-- `commTypes`, comm.c:43-57, as shipped.  The entries depend on compile-time options, so the
functions below take any list. -/
def links : List Link := [.x7, .pro, .serial, .wifi, .demo]

/-- `is_present` of each link. -/
def present : Link → M Bool
  | .x7 => get (·.x7)
  | .pro => get (·.pro)
  | .serial | .demo => pure true
  | .wifi => wifiPresent

/-- `read_ready` of each link. -/
def linkReady : Link → M Bool
  | .x7 => x7ReadReady
  | .pro => proReadReady
  | .serial | .wifi | .demo => do
    let v ← ask
    pure (decide (v ≠ 0))

/-- `read` of each link. -/
def linkRead : Link → M Nat
  | .x7 => x7Read
  | .pro => proRead
  | .serial | .wifi | .demo => do
    let v ← ask
    pure (v % 256)

/-- `write_ready` of each link: comm_everdrive_pro.c:96-99 and comm_megawifi.c:224-227 always say
yes, comm_demo.c:175-178 always says no. -/
def linkWriteReady : Link → M Bool
  | .x7 => x7WriteReady
  | .serial => readyToSend
  | .pro | .wifi => pure true
  | .demo => pure false

/-- `write` of each link. -/
def linkWrite (data : List Nat) : Link → M Unit
  | .x7 => x7Write data
  | .pro => proWrite data
  | .serial => commSerialWrite data
  | .wifi | .demo => pure ()

/-- `init` of each link. -/
def linkInit (port : Nat) (debug : Bool) : Link → M Unit
  | .x7 => x7Init
  | .pro => proInit
  | .serial => do let _ ← commSerialInit port debug
  | .wifi => do let _ ← wifiPresent
  | .demo => pure ()

/-- The loop of `comm_init`, comm.c:63-69. -/
def initAll (port : Nat) (debug : Bool) : List Link → M Unit
  | [] => pure ()
  | l :: rest => do linkInit port debug l; initAll port debug rest

/-- `comm_init`, comm.c:63-69. -/
def commInit (ls : List Link) (port : Nat) (debug : Bool) : M Unit := do
  initAll port debug ls
  put fun s => { s with active := none }

/-- The scan in `read_ready`, comm.c:74-79. -/
def scan : List Link → M Bool
  | [] => pure false
  | l :: rest => do
    if ← present l then
      if ← linkReady l then
        put fun s => { s with active := some l }
        pure true
      else scan rest
    else scan rest

/-- `read_ready`, comm.c:71-89. -/
def readReady (ls : List Link) : M Bool := do
  match ← get (·.active) with
  | none => scan ls
  | some l => linkReady l

/-- NULL pointer dereferenced. -/
def ub {α : Type} : M α := fun s => (none, { s with fault := true })

/-- `comm_read`, comm.c:96-104. -/
def commRead (ls : List Link) : M Nat := do
  spin (readReady ls)
  match ← get (·.active) with
  | none => ub
  | some l => linkRead l

/-- `comm_write`, comm.c:122-127. -/
def commWrite (data : List Nat) : M Unit := do
  match ← get (·.active) with
  | none => ub
  | some l =>
    spin (linkWriteReady l)
    linkWrite data l

/-- Calls from the rest of the program. -/
inductive Op
  | readReady            -- `comm_read_ready`, comm.c:91-94
  | read                 -- `comm_read`
  | write (data : List Nat)
  | ledTick              -- frame handler
  deriving DecidableEq, Repr

/-- One call. -/
def call (ls : List Link) : Op → M Unit
  | .readReady => do let _ ← readReady ls
  | .read => do let _ ← commRead ls
  | .write data => commWrite data
  | .ledTick => ledTick

/-- Calls one after the other. -/
def calls (ls : List Link) : List Op → M Unit
  | [] => pure ()
  | o :: rest => do call ls o; calls ls rest

/-- Power-on, `static` objects zero. -/
def boot (hw : List Hw) (vdp11 : Nat) : St :=
  ⟨hw, [], 0, vdp11, false, false, false, false, none, false⟩

/-- Start-up (`comm_init` from src/main.c:25) and then any calls. -/
def session (ls : List Link) (port : Nat) (debug : Bool) (ops : List Op) : M Unit := do
  commInit ls port debug
  calls ls ops

end Mdmi.Port
