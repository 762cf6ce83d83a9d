import Verif.Proofs.MidiRx
import Verif.Spec.Example
/-! C03: bytes that are not supported messages have no effect on sound. -/
namespace Mdmi.Props
open Mdmi Mdmi.Rx

/-- The warnings of idle pieces, oldest first: one per stray byte. -/
def strayBytes : List Piece → List Nat
  | [] => []
  | .stray b :: l => b :: strayBytes l
  | .message _ :: l => strayBytes l

private theorem deliver_idle (env : Rx.Env) (l : List Piece) : ∀ (junk : Nat → Nat → Nat) (s : Sys), s.stop = none →
    (∀ x ∈ l, x.Idle) →
    deliverAll env junk s (l.map Piece.call) = { s with warnings := (strayBytes l).reverse ++ s.warnings } := by
  induction l with
  | nil => intro _ s _ _; rfl
  | cons x l ih =>
    intro junk s hs h
    have hx := h x (by simp)
    have hl : ∀ y ∈ l, y.Idle := fun y hy => h y (by simp [hy])
    have key : deliver env (junk 0) s x.call = { s with warnings := (strayBytes [x]).reverse ++ s.warnings } := by
      rcases x with m | b
      · cases m <;> first | (simp [Piece.Idle, Piece.ops] at hx; done) | (simp [Piece.call, Message.call, deliver, hs, act, strayBytes]; rw [← hs])
      · simp [Piece.call, deliver, hs, act, strayBytes]
    simp only [List.map_cons, deliverAll]
    rw [key, ih _ _ (by simp [hs]) hl]
    rcases x with m | b <;> simp [strayBytes]

/-- **C03**.  In every state, any sequence of stray data bytes, aftertouch and undefined status bytes, song position,
clock, start, continue and stop leaves the engine (voices, channels, configuration and both chips) as it is and only
logs; what follows is received as if the sequence had not been there. -/
theorem C03_no_effect (env : Rx.Env) (junk : Nat → Nat → Nat) (s : Sys) (l : List Piece) (h : ∀ x ∈ l, x.Ok ∧ x.Idle)
    (hs : s.stop = none) (rest : List Nat) :
    receive env junk s (l.flatMap Piece.bytes ++ rest) =
      receive env (fun n => junk (n + l.length)) { s with warnings := (strayBytes l).reverse ++ s.warnings } rest := by
  unfold receive
  rw [readAll_pieces l (fun x hx => (h x hx).1), deliverAll_append,
    deliver_idle env l junk s hs fun x hx => (h x hx).2, List.length_map]

/-- **C03** (mixed).  In a stream of messages with such bytes in between, the engine gets exactly the calls of the
messages. -/
theorem C03_mixed (env : Rx.Env) (junk : Nat → Nat → Nat) (s : Sys) (hs : s.stop = none) (l : List Piece)
    (h : ∀ x ∈ l, x.Ok) (hr : env.startup = [] ∨ ∀ x ∈ l, x.call ≠ .reset) :
    (receive env junk s (l.flatMap Piece.bytes)).midi = Midi.run env.midi s.midi (streamOps junk l) := by
  unfold receive
  have := readAll_pieces l h []
  rw [List.append_nil] at this
  rw [this]
  simp only [readAll, readLoop, List.append_nil, List.length_nil]
  exact (deliver_pieces env l junk s hs hr).1

/-- Every single byte is either the status of a supported message or a stray byte: nothing is left unclassified. -/
theorem C03_every_byte (b : Nat) (hb : b < 256) :
    Stray b ∨ (∃ m : Message, m.Ok ∧ m.bytes.head? = some b) := by
  by_cases h : Stray b
  · exact .inl h
  · right
    unfold Stray at h
    simp only [List.mem_cons, List.not_mem_nil, or_false, not_or] at h
    by_cases h8 : b < 0x90
    · exact ⟨.noteOff (b - 0x80) 0 0, ⟨by omega, by omega, by omega⟩, by simp [Message.bytes]; omega⟩
    by_cases h9 : b < 0xA0
    · exact ⟨.noteOn (b - 0x90) 0 0, ⟨by omega, by omega, by omega⟩, by simp [Message.bytes]; omega⟩
    by_cases hB : b < 0xC0
    · exact ⟨.controlChange (b - 0xB0) 0 0, ⟨by omega, by omega, by omega⟩, by simp [Message.bytes]; omega⟩
    by_cases hC : b < 0xD0
    · exact ⟨.programChange (b - 0xC0) 0, ⟨by omega, by omega⟩, by simp [Message.bytes]; omega⟩
    by_cases hE : b < 0xF0
    · exact ⟨.pitchBend (b - 0xE0) 0, ⟨by omega, by omega⟩, by simp [Message.bytes]; omega⟩
    have : b = 0xF0 ∨ b = 0xF2 ∨ b = 0xF8 ∨ b = 0xFA ∨ b = 0xFB ∨ b = 0xFC ∨ b = 0xFF := by omega
    rcases this with rfl | rfl | rfl | rfl | rfl | rfl | rfl
    · exact ⟨.sysex [], ⟨by simp, by simp⟩, rfl⟩
    · exact ⟨.songPosition 0, by simp [Message.Ok], rfl⟩
    · exact ⟨.clock, trivial, rfl⟩
    · exact ⟨.start, trivial, rfl⟩
    · exact ⟨.continue, trivial, rfl⟩
    · exact ⟨.stop, trivial, rfl⟩
    · exact ⟨.systemReset, trivial, rfl⟩

/-! ### Examples -/

example : readAll [0x45, 0xA3, 0xD0, 0xF1, 0xFE, 0xF2, 1, 2, 0xF8, 0x90, 60, 100] =
    ([.warn 0x45, .warn 0xA3, .warn 0xD0, .warn 0xF1, .warn 0xFE, .nothing, .nothing, .noteOn 0 60 100], []) := by
  decide

/-- Running status is not supported: a second note without its status byte is two warnings. -/
example : (readAll [0x90, 60, 100, 64, 100]).1 = [.noteOn 0 60 100, .warn 64, .warn 100] := by decide

end Mdmi.Props
