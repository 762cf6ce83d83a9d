import Verif.Proofs.PortMore
/-! C80: the links and the hardware registers. -/
namespace Mdmi.Props
open Mdmi Mdmi.Port

/-- All register accesses of a session, newest first: start-up and then any calls, whatever the
hardware answers and whenever it interrupts, cut off anywhere. -/
def trace (ls : List Link) (p : Nat) (debug : Bool) (ops : List Port.Op) (hw : List Hw) (vdp : Nat) : List Acc :=
  (session ls p debug ops (Port.boot hw vdp)).2.acc

section
variable (ls : List Link) (p : Nat) (debug : Bool) (ops : List Port.Op) (hw : List Hw) (vdp : Nat)

/-- **C80** (register map).  The links access only the documented registers, and write configuration
registers only with their fixed values: no other controller port, no memory-bank register. -/
theorem C80_known_registers : ∀ a ∈ trace ls p debug ops hw vdp, Known p a :=
  (session_hist ls p debug ops hw vdp).known

/-- **C80** (presence).  The X7's USB register is touched only if the status register answered like
an X7; the Pro's FIFO only if the Pro's identification answered; the LED only if one of them did. -/
theorem C80_only_if_present :
    (¬IsX7 (trace ls p debug ops hw vdp) → ∀ a ∈ trace ls p debug ops hw vdp, a.addr ≠ 0xA130E2) ∧
    (¬IsPro (trace ls p debug ops hw vdp) → ∀ a ∈ trace ls p debug ops hw vdp, a.addr ≠ 0xA130D0 ∧ a.addr ≠ 0xA130D2) ∧
    (¬IsX7 (trace ls p debug ops hw vdp) → ¬IsPro (trace ls p debug ops hw vdp) →
      ∀ a ∈ trace ls p debug ops hw vdp, a.addr ≠ 0xA130F0) := by
  have h := session_hist ls p debug ops hw vdp
  refine ⟨fun n a ha e => n (h.usb a ha e), fun n a ha => ⟨fun e => n (h.fifo a ha (.inl e)), fun e => n (h.fifo a ha (.inr e))⟩,
    fun n m a ha e => ?_⟩
  rcases h.ledReg a ha e with x | x
  · exact n x
  · exact m x

/-- **C80** (serial sending).  Against every transmitter that holds one byte and tells when it is
free: no byte is ever overwritten, and what it has sent and holds is what the program wrote, in
order. -/
theorem C80_serial_never_overrun {held : Option Nat} {out : List Nat} {lost : Nat}
    (d : Sends (serialTx p) (toSerial p) (trace ls p debug ops hw vdp) held out lost) :
    lost = 0 ∧ out.reverse ++ held.toList = sentTo (toSerial p) (trace ls p debug ops hw vdp) := by
  have hu : ∀ a, (serialTx p).use a = (toSerial p a).isSome := by
    intro a
    cases a with
    | w8 r v => by_cases h : r = (Uart.of p).txData <;> simp [serialTx, toSerial, h]
    | _ => rfl
  have hk : ∀ a, (serialTx p).ok a = true → toSerial p a = none := by
    intro a
    cases a with
    | w8 r v => intro h; cases h
    | _ => intro _; rfl
  have k := Sends.safe hu hk (session_hist ls p debug ops hw vdp).tx d
  refine ⟨k.1, ?_⟩
  unfold sentTo
  show _ = (List.filterMap (toSerial p) (session ls p debug ops (Port.boot hw vdp)).2.acc).reverse
  rw [← k.2.1]
  cases held <;> simp

/-- **C80** (X7 sending): the same for the X7's USB register. -/
theorem C80_x7_never_overrun {held : Option Nat} {out : List Nat} {lost : Nat}
    (d : Sends x7Tx toX7 (trace ls p debug ops hw vdp) held out lost) :
    lost = 0 ∧ out.reverse ++ held.toList = sentTo toX7 (trace ls p debug ops hw vdp) := by
  have hu : ∀ a, x7Tx.use a = (toX7 a).isSome := by
    intro a
    cases a with
    | w16 r v => by_cases h : r = 0xA130E2 <;> simp [x7Tx, toX7, h]
    | _ => rfl
  have hk : ∀ a, x7Tx.ok a = true → toX7 a = none := by
    intro a
    cases a with
    | w16 r v => intro h; cases h
    | _ => intro _; rfl
  have k := Sends.safe hu hk (session_hist ls p debug ops hw vdp).x7tx d
  refine ⟨k.1, ?_⟩
  unfold sentTo
  show _ = (List.filterMap toX7 (session ls p debug ops (Port.boot hw vdp)).2.acc).reverse
  rw [← k.2.1]
  cases held <;> simp

/-- **C80** (receiving).  The X7's USB register and the Pro's FIFO are read only after a look at the
status register which said a byte is waiting, one byte per look. -/
theorem C80_reads_only_waiting_bytes :
    x7Rx.Obeyed (trace ls p debug ops hw vdp) ∧ proRx.Obeyed (trace ls p debug ops hw vdp) :=
  ⟨(session_hist ls p debug ops hw vdp).x7rx, (session_hist ls p debug ops hw vdp).prorx⟩

/-- **C80** (serial receiving), partial: from the end of start-up on, every read of the receive
register follows a look at the status register which said a byte is waiting.  During start-up this
is false, see `C80_violated_flush`. -/
theorem C80_serial_reads_only_waiting_bytes_partial (t : Port.St) (h : commInit ls p debug (Port.boot hw vdp) = (some (), t)) :
    ∃ new, (calls ls ops t).2.acc = new ++ t.acc ∧ (serialRx p).Obeyed new :=
  (calls_hist ls p debug ops hw vdp t h).rx _ rfl

/-- **C80** (LED).  The LED register is written only to change the LED, with the unlock bit set and
all other bits clear. -/
theorem C80_led_changes : LedOk (trace ls p debug ops hw vdp) := (session_hist ls p debug ops hw vdp).led

/-- **C80** (addressing).  After any session, `comm_write` of up to 65535 bytes puts them on the
active link exactly as that link wants them and nothing on the others; cut off, a prefix. -/
theorem C80_write_exact {s : Port.St} (h : session ls p debug ops (Port.boot hw vdp) = (some (), s))
    (data : List Nat) (hl : data.length < 65536) (l k : Link) (ha : s.active = some l) :
    ∃ pre, pre <+: (if k = l then wire l data else []) ∧
      sentTo (toLink p k) (commWrite data s).2.acc = sentTo (toLink p k) s.acc ++ pre ∧
      ((commWrite data s).1 = some () → pre = if k = l then wire l data else []) := by
  have n := session_now h
  exact commWrite_sofar s data l k ha (fun e => n.1.actS (by rw [ha, e])) n.1.port hl

/-- **C80** (reading).  What `comm_read` returns on an Everdrive is the low byte of its data
register, read last. -/
theorem C80_read_returns_register {s t : Port.St} {b : Nat} (h : commRead ls s = (some b, t)) (l : Link) (ht : t.active = some l) :
    (l = .x7 → ∃ w rest, t.acc = .r16 0xA130E2 w :: rest ∧ b = w % 256) ∧
    (l = .pro → ∃ w rest, t.acc = .r16 0xA130D0 w :: rest ∧ b = w % 256) :=
  commRead_from h l ht

/-- **C80** (ready).  With an Everdrive as source, the answer to "is a byte there" is bit 2 of the
X7's status, or the busy bit 15 of the Pro's being clear, of a look just taken. -/
theorem C80_ready_is_the_status {s t : Port.St} {b : Bool} (h : readReady ls s = (some b, t)) :
    (s.active = some .x7 → ∃ v rest, t.acc = .r16 0xA130E4 v :: rest ∧ (b = true ↔ v / 4 % 2 = 1)) ∧
    (s.active = some .pro → ∃ v rest, t.acc = .r16 0xA130D2 v :: rest ∧ (b = true ↔ v < 0x8000)) := by
  unfold readReady at h
  rw [bind_some (m := get _) (a := s.active) (t := s) rfl] at h
  constructor
  · intro e; rw [e] at h; exact x7Ready_last h
  · intro e; rw [e] at h; exact proReady_last h

/-- **C80** (source).  A source once chosen stays. -/
theorem C80_source_stays {s t : Port.St} (h : session ls p debug ops (Port.boot hw vdp) = (some (), s)) (more : List Port.Op)
    (l : Link) (ha : s.active = some l) (ht : calls ls more s = (some (), t)) : t.active = some l := by
  have n := session_now h
  have := (calls_kept (p := p) (ls := ls) l more s trivial ⟨n.1.port, ha⟩).2 () (by rw [ht])
  rw [ht] at this
  exact this.2

/-- **C80** (LED).  After a frame the LED is off; after reading a byte from an Everdrive it is on. -/
theorem C80_led_shows_traffic {s t : Port.St} (h : session ls p debug ops (Port.boot hw vdp) = (some (), s)) :
    (ledTick s = (some (), t) → lit t.acc = false) ∧
    (∀ b l, s.active = some l → l = .x7 ∨ l = .pro → commRead ls s = (some b, t) → lit t.acc = true) := by
  have n := session_now h
  have hi : Hist p none s.acc := by
    have := session_hist ls p debug ops hw vdp
    rw [h] at this; exact this
  constructor
  · intro ht
    have k := (ledTick_now (X := Up ls) s hi n).2 () (by rw [ht])
    have k2 := (ledTick_led (p := p) s trivial ⟨n.1.port, trivial⟩).2 () (by rw [ht])
    rw [ht] at k k2
    rw [← k.1.led]; exact k2.2
  · intro b l ha hl ht
    have k := (commRead_now (ls := ls) s hi n).2 b (by rw [ht])
    rw [ht] at k
    rw [← k.1.led]
    unfold commRead at ht
    obtain ⟨_, u, h1, h2⟩ := bind_inv ht
    have ku := (spin_sw (readReady_kept (p := p) (ls := ls) l) s trivial ⟨n.1.port, ha⟩).2 () (by rw [h1])
    rw [h1] at ku
    rw [bind_some (m := get _) (a := u.active) (t := u) rfl, ku.2] at h2
    rcases hl with rfl | rfl
    · have := (x7Read_led (p := p) u trivial ⟨ku.1, trivial⟩).2 b (by rw [show x7Read u = _ from h2])
      rw [show x7Read u = _ from h2] at this; exact this.2
    · have := (proRead_led (p := p) u trivial ⟨ku.1, trivial⟩).2 b (by rw [show proRead u = _ from h2])
      rw [show proRead u = _ from h2] at this; exact this.2

/-- **C80** (start-up).  `comm_serial_init` sets the port up once: 4800 bps, both lines serial,
receive interrupt (0x38), pins as outputs (0x7F), interrupt level 1, bit 3 of VDP register 11, then
the callback; after that it only reads status and data. -/
theorem C80_serial_setup {s : Port.St} (hs : s.irqOn = false) : ∃ reads,
    (commSerialInit p debug s).2.acc = reads ++
      [.extInt, .vdpReg 11 (s.vdp11 ||| 8), .intMask 1, .w8 (Uart.of p).dir 0x7F, .w8 (Uart.of p).status 0x38] ++ s.acc ∧
    ∀ a ∈ reads, ∃ v, a = .r8 (Uart.of p).status v ∨ a = .r8 (Uart.of p).rxData v :=
  commSerialInit_acc hs debug

/-- **C80** (start-up).  It ends with a look that says nothing is waiting. -/
theorem C80_serial_starts_empty {s t : Port.St} {b : Option Nat} (hs : s.irqOn = false) (h : commSerialInit p false s = (some b, t)) :
    ∃ v rest, t.acc = .r8 (Uart.of p).status v :: rest ∧ v &&& 2 = 0 := by
  rw [← sctrl_of]; exact commSerialInit_dry h hs

/-- **C80** (interrupt).  With room for `room` more bytes, the handler takes bytes until a look says
nothing is waiting, or the buffer is full and one more byte is lost. -/
theorem C80_interrupt_empties (room : Nat) {s t : Port.St} (h : isr room s = (some (), t)) : ∃ new, t.acc = new ++ s.acc ∧
    ((taken s.ioPort new ≤ room ∧ ∃ v rest, new = .r8 (Uart.of s.ioPort).status v :: rest ∧ v &&& 2 = 0) ∨
      taken s.ioPort new = room + 1) := by
  rw [← sctrl_of]; exact isr_drains room s t h

/-- **C80** (rate).  The rate logged is the one the status register tells: bits 7-6 are 0 for 4800,
1 for 2400, 2 for 1200, 3 for 300. -/
theorem C80_baud_rate {s t : Port.St} {r : Nat} (h : baudRate s = (some r, t)) :
    ∃ v rest, t.acc = .r8 (Uart.of s.ioPort).status v :: rest ∧
      r = match v / 64 with | 0 => 4800 | 1 => 2400 | 2 => 1200 | _ => 300 :=
  baudRate_eq h

/-- **C80** (progress).  Without interrupts `comm_write` ends once the device has said ready more
often than there are bytes. -/
theorem C80_write_completes (data : List Nat) (s : Port.St) (vs : List Nat) (h : s.hw = vs.map .val) :
    (s.active = some .serial → data.length < vs.countP (fun v => v % 2 == 0) → (commWrite data s).1 = some ()) ∧
    (s.active = some .x7 → data.length < vs.countP (fun v => v / 2 % 2 == 1) → (commWrite data s).1 = some ()) :=
  ⟨fun a c => commWrite_serial_done data s vs a h c, fun a c => commWrite_x7_done data s vs a h c⟩

/-- **C80** violated (progress): with the demo active `comm_write` never ends, whatever the hardware
does. -/
theorem C80_violated_demo_write_hangs (data : List Nat) (s : Port.St) (ha : s.active = some .demo) : (commWrite data s).1 = none :=
  commWrite_demo data s ha

end

/-- Answers to start-up as shipped: X7 (0x4003), no Pro, nothing received, no MegaWiFi. -/
private def x7Start : List Hw := [.val 0x4003, .val 0xFFFF, .val 0x38, .val 0xFF]

/-- Answers to start-up with a byte waiting and an interrupt right after `flush_rrdy` has seen it. -/
private def race : List Hw :=
  [.val 0xFFFF, .val 0xFFFF, .val 0x3A, .irq 5, .val 0x3A, .val 0x90, .val 0x38, .val 0x90, .val 0x38, .val 0]

private theorem race_trace : trace links 0 false [] race 0 =
    [.r8 0xA130CF 0, .w8 0xA130CF 0x57, .r8 0xA10019 0x38] ++ .r8 0xA10017 0x90 ::
      [.r8 0xA10019 0x38, .r8 0xA10017 0x90, .r8 0xA10019 0x3A, .r8 0xA10019 0x3A, .extInt, .vdpReg 11 8, .intMask 1,
        .w8 0xA1000B 0x7F, .w8 0xA10019 0x38, .r16 0xA130D4 0xFFFF, .r16 0xA130E4 0xFFFF] := by decide +kernel

private theorem obeyed_at {g : Gate} {a : Port.Acc} {old : List Port.Acc} (hu : g.use a = true) :
    (new : List Port.Acc) → g.Obeyed (new ++ a :: old) → g.open old = true
  | [], h => h.2 hu
  | _ :: r, h => obeyed_at hu r h.1

/-- **C80** violated (serial receiving): during start-up the interrupt can empty the receiver between
the look and the read of `flush_rrdy`, which then reads a byte that is not there (and discards it). -/
theorem C80_violated_flush : ∃ hw, ¬(serialRx 0).Obeyed (trace links 0 false [] hw 0) := by
  refine ⟨race, ?_⟩
  rw [race_trace]
  exact mt (obeyed_at (by decide) _) (by decide)

/-- A session on an X7: a byte is found and read, an answer of two bytes sent (the first time the
device is not ready), the LED goes off again. -/
example : trace links 0 false [.readReady, .read, .write [0xF0, 0xF7], .ledTick]
    (x7Start ++ [.val 0x4007, .val 0x4007, .val 0x90, .val 0x4002, .val 0x4000, .val 0x4002, .val 0x4002]) 0 =
    [.w16 0xA130F0 0x8000, .w16 0xA130E2 0xF7, .r16 0xA130E4 0x4002, .w16 0xA130E2 0xF0, .r16 0xA130E4 0x4002,
      .r16 0xA130E4 0x4000, .r16 0xA130E4 0x4002, .r16 0xA130E2 0x90, .w16 0xA130F0 0x9000, .r16 0xA130E4 0x4007,
      .r16 0xA130E4 0x4007, .r8 0xA130CF 0xFF, .w8 0xA130CF 0x57, .r8 0xA10019 0x38, .extInt, .vdpReg 11 8, .intMask 1,
      .w8 0xA1000B 0x7F, .w8 0xA10019 0x38, .r16 0xA130D4 0xFFFF, .r16 0xA130E4 0x4003] := by decide +kernel

/-- Serial link on the EXT port: an interrupt fetches a byte while the program waits to send. -/
example : trace [.serial] 1 true [.read, .write [0x41]]
    [.val 0x38, .val 0x38, .val 1, .val 0x90, .val 0x39, .val 0x38, .irq 8, .val 0x3A, .val 0x91, .val 0x38, .val 0x38] 0 =
    [.w8 0xA1001B 0x41, .r8 0xA1001F 0x38, .r8 0xA1001F 0x38, .r8 0xA1001D 0x91, .r8 0xA1001F 0x3A, .r8 0xA1001F 0x38,
      .r8 0xA1001F 0x39, .r8 0xA1001F 0x38, .r8 0xA1001F 0x38, .extInt, .vdpReg 11 8, .intMask 1,
      .w8 0xA1000D 0x7F, .w8 0xA1001F 0x38] := by decide +kernel

/-- An interrupt with room for one byte and three waiting: two taken, the second lost, the third left. -/
example : (isr 1 { Port.boot [.val 0x3A, .val 1, .val 0x3A, .val 2, .val 0x3A, .val 3] 0 with irqOn := true }).2.acc =
    [.r8 0xA10017 2, .r8 0xA10019 0x3A, .r8 0xA10017 1, .r8 0xA10019 0x3A] := by decide +kernel

/-- A Pro: identified, a byte read (LED on), an answer sent; start-up without a MegaWiFi. -/
example : trace links 0 false [.read, .write [0x41]]
    [.val 0xFFFF, .val 0x55A1, .val 0x38, .val 0xFF, .val 0x0001, .val 0x0001, .val 0x90] 0 =
    [.w16 0xA130D0 0x41, .w16 0xA130D0 1, .w16 0xA130D0 0, .w16 0xA130D0 0xDD, .w16 0xA130D0 0x22, .w16 0xA130D0 0xD4,
      .w16 0xA130D0 0x2B, .r16 0xA130D0 0x90, .r16 0xA130D2 1, .w16 0xA130F0 0x9000, .r16 0xA130D2 1, .r8 0xA130CF 0xFF,
      .w8 0xA130CF 0x57, .r8 0xA10019 0x38, .extInt, .vdpReg 11 8, .intMask 1, .w8 0xA1000B 0x7F, .w8 0xA10019 0x38,
      .r16 0xA130D4 0x55A1, .r16 0xA130E4 0xFFFF] := by decide +kernel

/-- Such a transmitter exists: it took the byte, sent it, took the next. -/
example : Sends (serialTx 0) (toSerial 0) [.w8 0xA10015 2, .r8 0xA10019 0x38, .r8 0xA10019 0x39, .w8 0xA10015 1, .r8 0xA10019 0x38]
    (some 2) [1] 0 :=
  .write (.look (.shift (.look (.write (.look .start rfl (fun _ => rfl)) rfl) rfl (fun h => by cases h))) rfl (fun _ => rfl)) rfl

/-- What goes out on the Pro. -/
example : wire .pro [0xF0, 0x7E, 0xF7] = [0x2B, 0xD4, 0x22, 0xDD, 0, 3, 0xF0, 0x7E, 0xF7] := by decide +kernel

end Mdmi.Props
