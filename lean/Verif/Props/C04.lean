import Verif.Props.C03
/-! C04: real-time bytes inside a system exclusive message. -/
namespace Mdmi.Props
open Mdmi Mdmi.Rx

/-- System real-time bytes: clock, start, continue, stop. -/
def RealTime (b : Nat) : Prop := b = 0xF8 ∨ b = 0xFA ∨ b = 0xFB ∨ b = 0xFC

/-- The full property: inserting a real-time byte anywhere in a stream changes no call but its own. -/
def RealTimeTransparent : Prop :=
  ∀ (l : List Message), (∀ m ∈ l, m.Ok) → ∀ xs ys, l.flatMap Message.bytes = xs ++ ys → ∀ b, RealTime b →
    (readAll (xs ++ b :: ys)).1.filter (· ≠ .nothing) = (readAll (xs ++ ys)).1.filter (· ≠ .nothing)

/-- **C04** does not hold.  A clock byte inside the message that selects dynamic mode becomes part of the payload. -/
theorem C04_violated : ¬RealTimeTransparent := by
  intro h
  have := h [.sysex [0, 0x22, 0x77, 3, 1]] (by simp [Message.Ok]) [0xF0, 0, 0x22, 0x77] [3, 1, 0xF7] (by decide) 0xF8
    (.inl rfl)
  revert this
  decide

/-- **C04** (effect).  Without the clock byte the message switches to dynamic mode; with it, nothing happens. -/
theorem C04_violated_effect :
    let env : Rx.Env := ⟨Ex.env .static, []⟩
    let s : Sys := ⟨Ex.start .static, [], none⟩
    (receive env (fun _ _ => 0) s [0xF0, 0, 0x22, 0x77, 3, 1, 0xF7]).midi.dynamic = true ∧
    (receive env (fun _ _ => 0) s [0xF0, 0, 0x22, 0x77, 0xF8, 3, 1, 0xF7]).midi.dynamic = false := by decide +kernel

/-- The same happens in channel messages: the clock byte is taken for the pitch. -/
theorem C04_violated_channel_message :
    readAll [0x90, 0xF8, 60, 100] = ([.noteOn 0 0xF8 60, .warn 100], []) := by decide

/-- **C04** (what happens instead).  A real-time byte among the payload is handed to the handler as payload, for every
payload and insertion point. -/
theorem C04_kept_as_payload (xs ys rest : List Nat) (b : Nat) (hb : RealTime b) (h7 : ∀ x ∈ xs ++ ys, x < 128)
    (hl : (xs ++ ys).length ≤ 254) :
    readAll (0xF0 :: (xs ++ b :: ys) ++ 0xF7 :: rest) =
      (.sysex (xs ++ b :: ys) :: (readAll rest).1, (readAll rest).2) := by
  have e := readSysex_end 256 (xs ++ b :: ys) rest
    (by
      intro x hx
      simp only [List.mem_append, List.mem_cons] at hx h7
      rcases hx with hx | rfl | hx
      · have := h7 x (.inl hx); omega
      · rcases hb with rfl | rfl | rfl | rfl <;> omega
      · have := h7 x (.inr hx); omega)
    (by simp at hl ⊢; omega)
  refine readAll_cons ?_
  simp only [List.cons_append, readMessage, readSystem, Nat.reduceDiv, Nat.reduceMod, e]

/-- **C04** (partial: between messages only).  A real-time byte between complete messages is transparent, in every
state. -/
theorem C04_between_messages_partial (env : Rx.Env) (junk : Nat → Nat → Nat) (s : Sys) (hs : s.stop = none) (b : Nat)
    (hb : RealTime b) (rest : List Nat) :
    receive env junk s (b :: rest) = receive env (fun n => junk (n + 1)) s rest := by
  rcases hb with rfl | rfl | rfl | rfl
  · have := C03_no_effect env junk s [.message .clock] (by simp [Piece.Ok, Message.Ok, Piece.Idle, Piece.ops]) hs rest
    simpa [Piece.bytes, Message.bytes, strayBytes] using this
  · have := C03_no_effect env junk s [.message .start] (by simp [Piece.Ok, Message.Ok, Piece.Idle, Piece.ops]) hs rest
    simpa [Piece.bytes, Message.bytes, strayBytes] using this
  · have := C03_no_effect env junk s [.message .continue] (by simp [Piece.Ok, Message.Ok, Piece.Idle, Piece.ops]) hs rest
    simpa [Piece.bytes, Message.bytes, strayBytes] using this
  · have := C03_no_effect env junk s [.message .stop] (by simp [Piece.Ok, Message.Ok, Piece.Idle, Piece.ops]) hs rest
    simpa [Piece.bytes, Message.bytes, strayBytes] using this

example : readAll [0xF8, 0x90, 60, 100, 0xFA] = ([.nothing, .noteOn 0 60 100, .nothing], []) := by decide

end Mdmi.Props
