import Verif.Model.Port
/-!
# What the links' hardware expects

Histories of register accesses, newest first, as in `Model/Port`.  The register maps are written down
again here: the Mega Drive's controller ports in serial mode, the Mega Everdrive X7 and the Mega
Everdrive Pro.
-/
namespace Mdmi.Port

/-- Registers of the serial port: status, transmit and receive data, pin directions. -/
structure Uart where
  status : Nat
  txData : Nat
  rxData : Nat
  dir : Nat
  deriving DecidableEq, Repr

/-- Controller port 2 (number 0 in the program) and the EXT port. -/
def Uart.of : Nat → Uart
  | 0 => ⟨0xA10019, 0xA10015, 0xA10017, 0xA1000B⟩
  | _ => ⟨0xA1001F, 0xA1001B, 0xA1001D, 0xA1000D⟩

/-- A register through which bytes pass one at a time: `use` passes one, and may be done only after
a look at the status register, `look`, with the answer yes (`ok`). -/
structure Gate where
  ok : Acc → Bool
  use : Acc → Bool

/-- Was there a look with the answer yes since the last use? -/
def Gate.open (g : Gate) : List Acc → Bool
  | [] => false
  | a :: l => g.ok a || (!g.use a && g.open l)

/-- Every use came after a look with the answer yes of its own. -/
def Gate.Obeyed (g : Gate) : List Acc → Prop
  | [] => True
  | a :: l => g.Obeyed l ∧ (g.use a = true → g.open l = true)

/-- Serial transmitter: bit 0 of the status says full. -/
def serialTx (p : Nat) : Gate where
  ok a := match a with
    | .r8 r v => r == (Uart.of p).status && v % 2 == 0
    | _ => false
  use a := match a with
    | .w8 r _ => r == (Uart.of p).txData
    | _ => false

/-- Serial receiver: bit 1 of the status says a byte has arrived. -/
def serialRx (p : Nat) : Gate where
  ok a := match a with
    | .r8 r v => r == (Uart.of p).status && v / 2 % 2 == 1
    | _ => false
  use a := match a with
    | .r8 r _ => r == (Uart.of p).rxData
    | _ => false

/-- X7 USB, sending: bit 1 of 0xA130E4 says ready. -/
def x7Tx : Gate where
  ok a := match a with
    | .r16 r v => r == 0xA130E4 && v / 2 % 2 == 1
    | _ => false
  use a := match a with
    | .w16 r _ => r == 0xA130E2
    | _ => false

/-- X7 USB, receiving: bit 2 of 0xA130E4 says a byte has arrived. -/
def x7Rx : Gate where
  ok a := match a with
    | .r16 r v => r == 0xA130E4 && v / 4 % 2 == 1
    | _ => false
  use a := match a with
    | .r16 r _ => r == 0xA130E2
    | _ => false

/-- Pro FIFO, receiving: the low 11 bits of 0xA130D2 count the bytes waiting. -/
def proRx : Gate where
  ok a := match a with
    | .r16 r v => r == 0xA130D2 && v % 2048 != 0
    | _ => false
  use a := match a with
    | .r16 r _ => r == 0xA130D0
    | _ => false

/-- The Everdrive LED, as last switched: bit 12 of what was written to 0xA130F0. -/
def lit : List Acc → Bool
  | [] => false
  | .w16 r v :: l => if r = 0xA130F0 then v / 4096 % 2 == 1 else lit l
  | _ :: l => lit l

/-- The LED is written only to change it, always with the unlock bit 15 and nothing else (so the
other bits, which write-enable memory, stay 0). -/
def LedOk : List Acc → Prop
  | [] => True
  | a :: l => LedOk l ∧ ∀ v, a = .w16 0xA130F0 v → v = if lit l then 0x8000 else 0x9000

/-- The answer that tells an X7: high byte 0x00 (SD) or 0x40 (SDHC). -/
def IsX7 (l : List Acc) : Prop := ∃ v, .r16 0xA130E4 v ∈ l ∧ (v / 256 = 0 ∨ v / 256 = 0x40)

/-- The answer that tells a Pro: 0x55A0 to 0x55AF. -/
def IsPro (l : List Acc) : Prop := ∃ v, .r16 0xA130D4 v ∈ l ∧ v / 16 = 0x55A

/-- Everything the links may do to the hardware with the serial link on port `p`. -/
def Known (p : Nat) : Acc → Prop
  | .r8 r _ => r = (Uart.of p).status ∨ r = (Uart.of p).rxData ∨ r = 0xA130CF
  | .r16 r _ => r = 0xA130E4 ∨ r = 0xA130E2 ∨ r = 0xA130D4 ∨ r = 0xA130D2 ∨ r = 0xA130D0
  | .w8 r v => (r = (Uart.of p).status ∧ v = 0x38) ∨ (r = (Uart.of p).dir ∧ v = 0x7F) ∨ r = (Uart.of p).txData ∨
      (r = 0xA130CF ∧ v = 0x57)
  | .w16 r v => r = 0xA130E2 ∨ r = 0xA130D0 ∨ (r = 0xA130F0 ∧ (v = 0x8000 ∨ v = 0x9000))
  | .intMask n => n = 1
  | .vdpReg r v => r = 11 ∧ v / 8 % 2 = 1
  | .extInt => True

/-- Register address of an access. -/
def Acc.addr : Acc → Nat
  | .r8 r _ | .r16 r _ | .w8 r _ | .w16 r _ => r
  | _ => 0

/-- Bytes taken from the serial receiver. -/
def taken (p : Nat) : List Acc → Nat
  | [] => 0
  | .r8 r _ :: l => if r = (Uart.of p).rxData then taken p l + 1 else taken p l
  | _ :: l => taken p l

/-- Bytes that went through a gate's data register, oldest first. -/
def sentTo (use : Acc → Option Nat) (l : List Acc) : List Nat := (l.filterMap use).reverse

/-- Writes to the serial transmitter. -/
def toSerial (p : Nat) : Acc → Option Nat
  | .w8 r v => if r = (Uart.of p).txData then some v else none
  | _ => none

/-- Writes to the X7's USB register. -/
def toX7 : Acc → Option Nat
  | .w16 r v => if r = 0xA130E2 then some v else none
  | _ => none

/-- Writes to the Pro's FIFO. -/
def toPro : Acc → Option Nat
  | .w16 r v => if r = 0xA130D0 then some v else none
  | _ => none

/-- A transmitter that holds one byte and sends it on at some later time.  `Sends g data l held out
lost`: with the accesses `l` it may now hold `held` (if anything), have sent `out` (newest first),
`lost` of the bytes written having been overwritten before they were sent.  Its status register says
ready only when it holds nothing. -/
inductive Sends (g : Gate) (data : Acc → Option Nat) : List Acc → Option Nat → List Nat → Nat → Prop
  | start : Sends g data [] none [] 0
  | shift {l b out n} : Sends g data l (some b) out n → Sends g data l none (b :: out) n
  | look {l h out n a} : Sends g data l h out n → data a = none → (g.ok a = true → h = none) →
      Sends g data (a :: l) h out n
  | write {l h out n a b} : Sends g data l h out n → data a = some b →
      Sends g data (a :: l) (some b) out (n + h.toList.length)

end Mdmi.Port
