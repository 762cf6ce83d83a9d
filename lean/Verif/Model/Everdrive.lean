/-!
# Model of `src/comm/comm_everdrive_pro.c` and of the byte-wise senders in
`src/comm/comm_everdrive.c` and `src/comm/comm_serial.c`

The device FIFO is a list of bytes; new bytes may arrive before every read of the status register.
Hardware assumption: the low 11 bits of the status register are the number of bytes waiting modulo
2048 and reading the data register removes the oldest one.
-/
namespace Mdmi.Everdrive

/-- State of `bi_fifo_rd`: device FIFO, bytes stored so far, bytes still wanted. -/
structure Rd where
  fifo : List Nat
  out : List Nat
  len : Nat
  deriving DecidableEq, Repr

/-- `*data8++ = mem_read_u16(REG_FIFO_DATA)`: one byte.  `none` = the FIFO was empty. -/
def readOne (r : Rd) : Option Rd :=
  match r.fifo with
  | [] => none
  | b :: rest => some { r with fifo := rest, out := r.out ++ [b % 256] }

/-- `n` single-byte reads. -/
def readN : Nat → Rd → Option Rd
  | 0, r => some r
  | n + 1, r => (readOne r).bind (readN n)

/-- The unrolled copy loops, src/comm/comm_everdrive_pro.c:33-42: groups of four, then the rest. -/
def copyBlock (block : Nat) (r : Rd) : Option Rd :=
  (readN (4 * (block / 4)) r).bind (readN (block % 4))

/-- One iteration of the outer loop of `bi_fifo_rd`, src/comm/comm_everdrive_pro.c:26-43, `arrived`
being the bytes that arrived since the last iteration. -/
def rdIter (r : Rd) (arrived : List Nat) : Option Rd :=
  if r.len = 0 then some { r with fifo := r.fifo ++ arrived }
  else
    let r := { r with fifo := r.fifo ++ arrived }
    let block := r.fifo.length % 2048            -- status & FIFO_RXF_MSK
    let block := if block > r.len then r.len else block
    copyBlock block { r with len := r.len - block }

/-- `bi_fifo_rd(data, n)` under an arrival schedule. -/
def fifoRd (n : Nat) (fifo : List Nat) (arrivals : List (List Nat)) : Option Rd :=
  arrivals.foldlM rdIter ⟨fifo, [], n⟩

/-- `bi_cmd_tx`, src/comm/comm_everdrive_pro.c:55-63 (`'+'` = 0x2B). -/
def cmdTx (cmd : Nat) : List Nat := [0x2B, 0x2B ^^^ 0xFF, cmd, cmd ^^^ 0xFF]

/-- `bi_cmd_usb_wr`, src/comm/comm_everdrive_pro.c:65-70, called by `comm_everdrive_pro_write`
(101-104): bytes written to the FIFO; `len` is stored big-endian (68000 memory order). -/
def usbWr (data : List Nat) : List Nat :=
  let len := data.length % 65536
  cmdTx 0x22 ++ [len / 256, len % 256] ++ data.take len

/-- A sender that waits for the device before each byte: `comm_everdrive_write`
(src/comm/comm_everdrive.c:56-63) and `comm_serial_write` (src/comm/comm_serial.c:98-105). -/
structure Wr where
  data : List Nat
  i : Nat
  sent : List Nat
  deriving DecidableEq, Repr

/-- One poll of the ready flag, followed by the send if it is set.  `none` = read past the data. -/
def wrIter (length : Nat) (w : Wr) (ready : Bool) : Option Wr :=
  if w.i < length then
    if ready then
      match w.data[w.i]? with
      | none => none
      | some b => some { w with i := w.i + 1, sent := w.sent ++ [b] }
    else some w
  else some w

/-- A message under a schedule of ready flags. -/
def write (data : List Nat) (ready : List Bool) : Option Wr :=
  ready.foldlM (wrIter data.length) ⟨data, 0, []⟩

end Mdmi.Everdrive
