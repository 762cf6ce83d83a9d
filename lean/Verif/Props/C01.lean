import Verif.Proofs.MidiRx
import Verif.Spec.Example
/-! C01: MIDI stream framing. -/
namespace Mdmi.Props
open Mdmi Mdmi.Rx

/-- **C01**.  A concatenation of complete messages is read as exactly these messages, in order, and nothing is left
over. -/
theorem C01_framing (l : List Message) (h : ∀ m ∈ l, m.Ok) :
    readAll (l.flatMap Message.bytes) = (l.map Message.call, []) := by
  have := readAll_pieces (l.map Piece.message) (by simpa [Piece.Ok] using h) []
  simpa [List.flatMap_map, Function.comp_def, Piece.bytes, Piece.call, readAll, readLoop] using this

/-- **C01** (engine).  Receiving such a stream runs the engine once per message, in order, with the encoded channel and
values, and nothing else (`junk` is the byte after a system exclusive payload).  System resets are part of it if the
startup sequence is empty, as it is by default (C59 covers the others). -/
theorem C01_engine (env : Rx.Env) (junk : Nat → Nat → Nat) (s : Sys) (hs : s.stop = none) (l : List Message)
    (h : ∀ m ∈ l, m.Ok) (hr : env.startup = [] ∨ ∀ m ∈ l, m.call ≠ .reset) :
    (receive env junk s (l.flatMap Message.bytes)).midi =
      Midi.run env.midi s.midi (streamOps junk (l.map Piece.message)) ∧
    (receive env junk s (l.flatMap Message.bytes)).stop = none := by
  unfold receive
  rw [C01_framing l h]
  have := deliver_pieces env (l.map Piece.message) junk s hs (hr.imp id (by simp [Piece.call]))
  simpa [List.map_map, Function.comp_def, Piece.call] using this

/-- **C01** (arrival).  However the bytes are cut into portions as they arrive, the same calls are made: the bytes left
from an incomplete message are completed by the next portion. -/
theorem C01_arrival (env : Rx.Env) (junk : Nat → Nat → Nat) (s : Sys) (xs ys : List Nat) :
    receive env junk s (xs ++ ys) =
      receive env (fun n => junk (n + (readAll xs).1.length)) (receive env junk s xs) ((readAll xs).2 ++ ys) := by
  unfold receive
  rw [readAll_append, deliverAll_append]

/-- **C01** (no early effect).  Before the last byte of a message has arrived nothing happens. -/
theorem C01_incomplete (m : Message) (h : m.Ok) (pre post : List Nat) (e : m.bytes = pre ++ post) (hp : post ≠ []) :
    readAll pre = ([], pre) := by
  cases hx : readMessage pre with
  | none => exact readAll_none hx
  | some x =>
    obtain ⟨c, rest⟩ := x
    have h1 := readMessage_append post hx
    have h2 := readMessage_message m h []
    rw [List.append_nil, e, h1] at h2
    simp only [Option.some.injEq, Prod.mk.injEq, List.append_eq_nil_iff] at h2
    exact absurd h2.2.2 hp

/-! ### Examples -/

example : readAll [0x90, 60, 100, 0xF8, 0xE3, 0x01, 0x40, 0xF0, 1, 2, 0xF7, 0xC5, 7, 0x85, 60, 0, 0xB1] =
    ([.noteOn 0 60 100, .nothing, .bend 3 8193, .sysex [1, 2], .program 5 7, .noteOff 5 60], [0xB1]) := by decide

example : (List.flatMap Message.bytes [.noteOn 1 60 100, .pitchBend 2 8200, .sysex [0, 0x22, 0x77, 1, 5]]) =
    [0x91, 60, 100, 0xE2, 8, 64, 0xF0, 0, 0x22, 0x77, 1, 5, 0xF7] := by decide

example : (Message.sysex (List.replicate 255 1)).Ok := ⟨fun b h => by rw [List.eq_of_mem_replicate h]; omega, by rw [List.length_replicate]; omega⟩

end Mdmi.Props
