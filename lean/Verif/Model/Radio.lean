import Verif.Model.MegaWifi
import Verif.Model.LogText
/-!
# Model of the start-up conversation with the radio

src/comm/comm_megawifi.c:74-83, 94-195 and src/comm/mw_uart.c.  The radio library is outside the repository: its answers
are the fields of `Radio`.  Every function of it is called at most once per start-up (`mw_udp_set` once per channel), so the
answers need not depend on the past.  What the library writes for a failed call (`ver_major`, `ip_cfg`) is not used by the
code.
-/
namespace Mdmi.Radio
open Mdmi Ui

/-- Answers: what the scratch register of the UART returns after a value was written to it; the error codes of the library
(`MW_ERR_NONE` is 0); versions; the default access point; the address. -/
structure Radio where
  scratch : Nat → Nat
  init : Int
  detect : Int
  major : Nat
  minor : Nat
  defaultAp : Int
  assoc : Int
  assocWait : Int
  ipErr : Int
  ip : Nat
  udp : Nat → Int

/-- What start-up does, seen from outside: it lets the other handlers run, installs the idle task (which calls
`mw_process` for ever), calls the library, logs, sets `listening`. -/
inductive Ev
  | yield | idleTask | listening
  | scratch (value : Nat)
  | init | detect | defaultAp | assoc (slot : Int) | assocWait (frames : Nat) | ipCurrent
  | udpSet (ch : Nat) (port : Text)
  | info (c : LogText.Call) | warn (c : LogText.Call)

/-- `MS_TO_FRAMES`, comm_megawifi.c:17-18. -/
def msToFrames (ms : Nat) : Nat := (ms * 60 / 500 + 1) / 2

/-- `mw_uart_is_present`, mw_uart.c:3-8: the calls and the result. -/
def isPresent (r : Radio) : List Ev × Bool := ([.scratch 0x57], r.scratch 0x57 == 0x57)

/-- `associate_ap`, comm_megawifi.c:94-108: the calls and the result. -/
def associateAp (r : Radio) : List Ev × Int :=
  let slot := if r.defaultAp < 0 then 0 else r.defaultAp
  if r.assoc ≠ 0 then ([.defaultAp, .assoc slot], r.assoc)
  else ([.defaultAp, .assoc slot, .assocWait (msToFrames 20000)], r.assocWait)

/-- `detect_mw`, comm_megawifi.c:121-135. -/
def detectMw (r : Radio) : List Ev × Bool :=
  if r.detect ≠ 0 then ([.info .mwDetecting, .detect, .warn .mwNotFound], false)
  else ([.info .mwDetecting, .detect, .info (.mwFound r.major r.minor), .yield], true)

/-- `listen_on_udp_port`, comm_megawifi.c:137-146; the text is what `sprintf` writes before the NUL. -/
def listenOnUdpPort (r : Radio) (ch port : Nat) : List Ev × Int :=
  let text := dec port
  ([.udpSet ch text] ++ (if r.udp ch ≠ 0 then [.warn (.mwCannotOpen port)] else []), r.udp ch)

/-- `init_mega_wifi`, comm_megawifi.c:160-195. -/
def initMegaWifi (r : Radio) : List Ev :=
  if r.init ≠ 0 then [.init, .warn (.mwInitError r.init)]
  else
    let d := detectMw r
    [.init, .idleTask] ++ d.1 ++
    if !d.2 then []
    else
      [.yield] ++ (associateAp r).1 ++ [.ipCurrent] ++
      if r.ipErr ≠ 0 then [.warn .mwNoIp]
      else
        let c := listenOnUdpPort r 1 5006
        c.1 ++
        if c.2 ≠ 0 then []
        else
          let m := listenOnUdpPort r 2 (5006 + 1)
          m.1 ++
          if m.2 ≠ 0 then []
          else [.listening, .info (.mwIp r.ip 5006), .yield]

/-- The end of `comm_megawifi_init`, comm_megawifi.c:78-83, in order. -/
def start (r : Radio) : List Ev :=
  let p := isPresent r
  p.1 ++ [.yield] ++ if p.2 then initMegaWifi r else []

/-- The event that sets `listening`. -/
def Ev.isListening : Ev → Bool
  | .listening => true
  | _ => false

/-- `comm_megawifi_init` as a whole, comm_megawifi.c:51-84: the variables after it. -/
def boot (r : Radio) : Wifi.St := Wifi.boot ((start r).any Ev.isListening)

end Mdmi.Radio
