import Verif.Proofs.MidiRxSaid
import Verif.Props.C44
import Verif.Props.C46
import Verif.Spec.Example
/-! C69: log messages fit their 40-byte field. -/
namespace Mdmi.Props
open Mdmi Mdmi.LogText

/-- **C69.** Every message the program can log, whatever its arguments, fits the 40-byte field with its NUL. -/
def C69_statement : Prop := ∀ c : Call, c.Typed → Fits c

/-- **C69** (partial: `C69_statement` for every message but "Serial: Attempted read from empty buffer"). -/
theorem C69_messages_fit_partial (c : Call) (h : c.Typed) (hs : c ≠ .serialEmpty) : Fits c := text_fits h hs

/-- **C69** fails: the message about an empty serial buffer (comm_serial.c:87) has 40 characters, so its NUL lies behind
the field. -/
theorem C69_violation : ¬ C69_statement :=
  fun h => absurd (h .serialEmpty trivial) (by unfold Fits; decide +kernel)

/-- The longest one: a wrong length of a system exclusive message fills the field to the last byte. -/
example : (Call.badLength 0x0A 65535 50).Typed ∧ (text (.badLength 0x0A 65535 50)).length + 1 = 40 ∧
    text (.badLength 0x0A 65535 50) = "Sysex 0A: Invalid length: 65535 (!= 50)".toList := by
  refine ⟨⟨by unfold U8; decide, by unfold U16; decide, by decide⟩, ?_, ?_⟩ <;> decide +kernel
example : text (.unknownRpn 15 0x3FFF 127 true) = "Ch 16: RPN? 0x3FFF MSB=0x7F".toList := by decide +kernel
example : text (.mwIp 3232235777 5006) = "MW: IP=192.168.1.1:5006".toList := by decide +kernel

/-- The message that does not fit is not logged: in no schedule does the serial receiver read an empty buffer. -/
theorem C69_serial_message_not_logged (sched : List Serial.Act) (hinit : Serial.noEarlyIrq 0 sched) {s : Serial.St}
    (h : Serial.run Serial.boot sched = some s) : Serial.Ev.q .empty ∉ s.trace := by
  obtain ⟨s', e, -, -, k⟩ := C44_serial_receive_partial sched hinit
  rw [h] at e
  cases e
  exact fun hm => k (List.mem_filterMap.2 ⟨_, hm, rfl⟩)

/-- What the receiver logs for a status byte: midi_rx.c:119, 196, or 191. -/
def ofStatus (w : Nat) : List Call := [.badStatus w, .badSystemStatus w, .resetAll]

/-- Bytes received (with what lies behind their exclusive messages in memory), or a call of the main program: system
reset, frame tick, remap. -/
def event (env : Rx.Env) (s : Rx.Sys) : List Nat × (Nat → Nat → Nat) ⊕ Midi.Op → Rx.Sys
  | .inl x => Rx.receive env x.2 s x.1
  | .inr op => Rx.engine env s op

/-- From power-on, over any preset memory, any startup sequence and any bytes received, well-formed or not, with any
calls of the main program in between: all messages of the engine and of the receiver fit. -/
theorem C69_stream_messages_fit (env : Rx.Env) (he : ∀ b ∈ env.startup, b < 256) (b : Bool) (m : Sram.Mem)
    (j : Nat → Nat) (script : List (List Nat × (Nat → Nat → Nat) ⊕ Midi.Op))
    (hb : ∀ x, .inl x ∈ script → ∀ b ∈ x.1, b < 256) (ho : ∀ op, .inr op ∈ script → OpTyped op) {s : Rx.Sys}
    (hs : s = script.foldl (event env) (Rx.boot env j b m)) :
    (∀ x ∈ s.midi.log, ∀ c ∈ ofMidi x, Fits c) ∧ ∀ w ∈ s.warnings, ∀ c ∈ ofStatus w, Fits c := by
  have k : Rx.SaidSys s := by
    rw [hs]
    refine List.foldlRecOn (motive := Rx.SaidSys) _ _ (Rx.boot_said he j b m) fun t ht x hx => ?_
    cases x with
    | inl y => exact Rx.receive_said he y.2 ht (hb y hx)
    | inr op => exact Rx.engine_said ht (ho op hx)
  refine ⟨fun x hx c hc => ?_, fun w hw c hc => ?_⟩
  · obtain ⟨h1, h2⟩ := typed_of_msgOk (k.midi.log x hx) c hc
    exact text_fits h1 h2
  · have hw := k.warn w hw
    simp only [ofStatus, List.mem_cons, List.not_mem_nil, or_false] at hc
    rcases hc with rfl | rfl | rfl
    · exact text_fits hw (by simp)
    · exact text_fits hw (by simp)
    · exact text_fits trivial (by simp)

/-- The same for the messages about stored presets. -/
theorem C69_preset_messages_fit {env : Midi.Env} (he : env.Ok) {s : Midi.St} (h : Midi.Reached env s) :
    ∀ x ∈ s.fm.log, Fits (ofFm x) :=
  fun x hx => text_fits (Midi.reached_fmSaid he h x hx) (by cases x <;> simp [ofFm])

/-- A call of the log with one of the messages, or of `log_dequeue`. -/
def logOp : Option (Log.Level × Call) → Log.Op
  | some (l, c) => .log l ((text c).map Char.toNat)
  | none => .dequeue

/-- In any sequence of these messages and of calls that fetch them nothing is written out of bounds, and what is fetched
are the newest nine in order. -/
theorem C69_log_keeps_messages (calls : List (Option (Log.Level × Call)))
    (h : ∀ l c, some (l, c) ∈ calls → c.Typed ∧ c ≠ .serialEmpty) :
    Log.run Log.init (calls.map logOp) = some (LogSpec.run [] (calls.map logOp)) := by
  refine C46_log_keeps_newest _ fun l m hm => ?_
  obtain ⟨x, hx, e⟩ := List.mem_map.1 hm
  cases x with
  | none => simp [logOp] at e
  | some x =>
    obtain ⟨l', c⟩ := x
    simp only [logOp, Log.Op.log.injEq] at e
    obtain ⟨-, rfl⟩ := e
    have := text_fits (h l' c hx).1 (h l' c hx).2
    unfold Fits at this
    rw [List.length_map]
    omega

/-- With the message that does not fit, the log is undefined. -/
theorem C69_empty_read_overflows : Log.run Log.init [logOp (some (.warn, .serialEmpty))] = none := by decide +kernel

/-- A stream that logs: a wrong length and a parameter number nobody knows (the stray byte goes to the receiver). -/
example : ((Rx.receive ⟨Ex.env .static, []⟩ (fun _ _ => 0)
    (Rx.boot ⟨Ex.env .static, []⟩ (fun _ => 0) false Ex.mem)
    [0xB0, 0x06, 0x05, 0xF0, 0x00, 0x22, 0x77, 0x0A, 0x01, 0xF7, 0x55]).midi.log.map
      fun x => ((ofMidi x).map text).getLast?) =
    [some "Sysex 0A: Invalid length: 1 (!= 50)".toList, some "Ch 1: RPN? 0x7F7F MSB=0x05".toList] := by decide +kernel

end Mdmi.Props
